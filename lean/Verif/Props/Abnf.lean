import Verif.Props.Failing
import Verif.Props.Nested
import Verif.Spec.Abnf
import Verif.TestPlatform

/-!
# C99: RFC 5545 texts

Which of the texts of RFC 5545, section 3.1, ikal reads, and as what.
-/

set_option linter.unusedSectionVars false

namespace Ikal
open Spec Spec.Abnf

/-! ## Lines -/

theorem token_name {s : Str} (h : IsToken s) : IsName s := fun c hc => by
  rcases h.2 c hc with h | h | h | h
  · exact .inr (.inl h)
  · exact .inl h
  · exact .inr (.inr (.inl h))
  · exact .inr (.inr (.inr (.inl h)))

theorem token_no {s : Str} (h : IsToken s) : '\r' ∉ s ∧ ':' ∉ s ∧ ';' ∉ s := by
  refine ⟨fun hc => ?_, fun hc => ?_, fun hc => ?_⟩ <;> exact absurd (h.2 _ hc) (by unfold TokenChar; decide)

theorem control_cr : Control '\r' ∧ Control '\n' := by unfold Control; decide

theorem Spec.Abnf.ParamValue.Ok.noControl {v : ParamValue} (h : v.Ok) : ∀ c ∈ v.str, ¬ Control c := by
  cases v with
  | text s => exact fun c hc => (h c hc).1
  | quoted s =>
    intro c hc
    simp only [ParamValue.str, List.cons_append, List.nil_append, List.mem_cons, List.mem_append, List.not_mem_nil, or_false] at hc
    rcases hc with rfl | hc | rfl
    · unfold Control; decide
    · exact (h c hc).1
    · unfold Control; decide

theorem mem_raw {p : Param} {c : Char} : c ∈ p.raw ↔ c ∈ p.first.str ∨ ∃ v ∈ p.more, c = ',' ∨ c ∈ v.str := by
  simp only [Param.raw, List.mem_append, List.mem_flatten, List.mem_map]
  constructor
  · rintro (h | ⟨l, ⟨v, hv, rfl⟩, h⟩)
    · exact .inl h
    · exact .inr ⟨v, hv, by simpa using h⟩
  · rintro (h | ⟨v, hv, h⟩)
    · exact .inl h
    · exact .inr ⟨_, ⟨v, hv, rfl⟩, by simpa using h⟩

theorem raw_noControl {p : Param} (h : p.Ok) : ∀ c ∈ p.raw, ¬ Control c := by
  intro c hc
  rcases mem_raw.1 hc with hc | ⟨v, hv, rfl | hc⟩
  · exact h.2.1.noControl c hc
  · unfold Control; decide
  · exact (h.2.2 v hv).noControl c hc

/-- A parameter ikal understands, as it is read. -/
theorem understood_text {p : Param} (h : p.Ok) (hu : p.Understood) {rest : Str} (hr : ∀ c, rest.head? = some c → c = ';' ∨ c = ':') :
    ParamText p.str p.name p.meaning rest := by
  obtain ⟨k, f, m⟩ := p
  have hk := token_name h.1
  have hc := raw_noControl h
  cases f with
  | quoted s =>
    cases m with
    | cons => exact hu.elim
    | nil =>
      have : Param.str ⟨k, .quoted s, []⟩ = c!";" ++ k ++ c!"=\"" ++ s ++ c!"\"" := by simp [Param.str, Param.raw, ParamValue.str]
      rw [this]
      exact .quoted hk fun hq => (h.2.1 _ hq).2 rfl
  | text s =>
    have hm : Param.meaning ⟨k, .text s, m⟩ = Param.raw ⟨k, .text s, m⟩ := rfl
    have hq : ∀ c, c = ';' ∨ c = ':' → c ∉ Param.raw ⟨k, .text s, m⟩ := by
      intro c hc' hc
      rcases mem_raw.1 hc with hc | ⟨v, hv, rfl | hc⟩
      · have := h.2.1 c hc
        rcases hc' with rfl | rfl
        · exact this.2.2.1 rfl
        · exact this.2.2.2.1 rfl
      · revert hc'; decide
      · cases v with
        | text t =>
          have := h.2.2 _ hv c hc
          rcases hc' with rfl | rfl
          · exact this.2.2.1 rfl
          · exact this.2.2.2.1 rfl
        | quoted t =>
          have := hu t hv
          simp only [ParamValue.str, List.cons_append, List.nil_append, List.mem_cons, List.mem_append, List.not_mem_nil, or_false] at hc
          rcases hc with rfl | hc | rfl
          · revert hc'; decide
          · rcases hc' with rfl | rfl
            · exact this.1 hc
            · exact this.2 hc
          · revert hc'; decide
    have hh : ∀ w, Param.raw ⟨k, .text s, m⟩ ≠ '"' :: w := by
      intro w e
      cases s with
      | nil =>
        cases m with
        | nil => simp [Param.raw, ParamValue.str] at e
        | cons v m => simp [Param.raw, ParamValue.str] at e
      | cons c s =>
        have := h.2.1 c (by simp)
        simp only [Param.raw, ParamValue.str, List.cons_append, List.cons.injEq] at e
        exact this.2.1 e.1
    show ParamText (c!";" ++ k ++ c!"=" ++ Param.raw ⟨k, .text s, m⟩) k (Param.raw ⟨k, .text s, m⟩) rest
    refine .plain hk (hq _ (.inl rfl)) (hq _ (.inr rfl)) hr (fun w e => absurd e (hh w)) fun hp => ?_
    exact hc '\r' (hp.subset (by simp)) control_cr.1

theorem params_text : ∀ {ps : List Param} {rest : Str}, (∀ p ∈ ps, p.Ok) → (∀ p ∈ ps, p.Understood) → (∀ c, rest.head? = some c → c = ';' ∨ c = ':') →
    ParamsText (ps.map Param.str).flatten (ps.map fun p => (p.name, p.meaning)) rest
  | [], _, _, _, _ => .nil
  | p :: ps, rest, h, hu, hr => by
    rw [List.map_cons, List.map_cons, List.flatten_cons]
    refine .cons (understood_text (h p (by simp)) (hu p (by simp)) ?_) (params_text (fun q hq => h q (by simp [hq])) (fun q hq => hu q (by simp [hq])) hr)
    cases ps with
    | nil => simpa using hr
    | cons q ps => intro c hc; simp [Param.str] at hc; exact .inl hc.symm

theorem lastValue_meaning (ps : List Param) (k : Str) : lastValue (ps.map fun p => (p.name, p.meaning)) k = meaningOf ps k := by
  simp only [lastValue, meaningOf, List.filter_map, Function.comp_def, List.getLast?_map, Option.map_map]

theorem line_no_frame {l : Line} (h : l.Ok) (hf : ¬ l.Frame) (rest : Str) : ¬ c!"BEGIN:" <+: l.str ++ rest ∧ ¬ c!"END:" <+: l.str ++ rest := by
  have key : ∀ w : Str, IsToken w → w ++ c!":" <+: l.str ++ rest → l.name = w ∧ l.params = [] := by
    intro w hw hp
    obtain ⟨x, hx⟩ := hp
    -- the first character of `;:` ends the name on both sides
    have hl : ∃ (c : Char) (y : Str), (c = ';' ∨ c = ':') ∧ (c = ':' → l.params = []) ∧ l.str ++ rest = l.name ++ c :: y := by
      cases hps : l.params with
      | nil => exact ⟨':', l.value ++ c!"\r\n" ++ rest, .inr rfl, fun _ => rfl, by simp [Line.str, hps]⟩
      | cons p ps => exact ⟨';', _, .inl rfl, fun h => absurd h (by decide), by simp [Line.str, hps, Param.str]; rfl⟩
    obtain ⟨c, y, hc, hcp, e⟩ := hl
    rw [e, List.append_assoc] at hx
    have hsplit : ∀ (a b : Str) (d : Char) (u v : Str), IsToken a → IsToken b → (d = ';' ∨ d = ':') → a ++ ':' :: u = b ++ d :: v → a = b ∧ ':' = d := by
      intro a
      have gen : ∀ (a b : Str) (d : Char) (u v : Str), (∀ c ∈ a, TokenChar c) → (∀ c ∈ b, TokenChar c) → (d = ';' ∨ d = ':') → a ++ ':' :: u = b ++ d :: v → a = b ∧ ':' = d := by
        intro a
        induction a with
        | nil =>
          intro b d u v _ hb hd e
          cases b with
          | nil => exact ⟨rfl, (List.cons.inj e).1⟩
          | cons c b =>
            have := hb c (by simp)
            rw [← (List.cons.inj e).1] at this
            exact absurd this (by unfold TokenChar; decide)
        | cons c a ih =>
          intro b d u v ha hb hd e
          cases b with
          | nil =>
            have := ha c (by simp)
            rw [(List.cons.inj e).1] at this
            rcases hd with rfl | rfl <;> exact absurd this (by unfold TokenChar; decide)
          | cons c' b =>
            obtain ⟨e1, e2⟩ := List.cons.inj e
            obtain ⟨e3, e4⟩ := ih b d u v (fun c hc => ha c (by simp [hc])) (fun c hc => hb c (by simp [hc])) hd e2
            exact ⟨by rw [e1, e3], e4⟩
      exact fun b d u v ha hb => gen a b d u v ha.2 hb.2
    obtain ⟨e1, e2⟩ := hsplit w l.name c x y hw h.1 hc (by simpa using hx)
    exact ⟨e1.symm, hcp e2.symm⟩
  constructor
  · intro hp
    obtain ⟨h1, h2⟩ := key c!"BEGIN" ⟨by decide, by unfold TokenChar; decide⟩ hp
    exact hf ⟨h2, .inl h1⟩
  · intro hp
    obtain ⟨h1, h2⟩ := key c!"END" ⟨by decide, by unfold TokenChar; decide⟩ hp
    exact hf ⟨h2, .inr h1⟩

theorem good_line {l : Line} (h : GoodLine l) {c : ContentLine} (hm : Means l c) (rest : Str) : LineText (l.str ++ rest) rest c := by
  obtain ⟨hok, hf, hu⟩ := h
  obtain ⟨h1, h2, h3, h4⟩ := hm
  obtain ⟨hb, he⟩ := line_no_frame hok hf rest
  refine ⟨hb, he, (l.params.map Param.str).flatten, _, c!"\r\n", ?_, h1 ▸ token_name hok.1, params_text hok.2.1 hu (by simp), ?_, ?_, .inr rfl, h3, fun k => ?_⟩
  · rw [h1, h2]; simp [Line.str]
  · rw [h2]; exact fun hc => hok.2.2 _ hc control_cr.2
  · rw [h2]; exact fun hc => hok.2.2 _ hc control_cr.1
  · rw [h4, lastValue_meaning]

theorem exists_means (l : Line) : ∃ c, Means l c := by
  refine ⟨⟨l.name, SMap.ofPairs (l.params.map fun p => (p.name, p.meaning)), l.value⟩, rfl, rfl, SMap.ofPairs_wf _, fun k => ?_⟩
  rw [← lastValue_meaning]; exact SMap.get?_ofPairs _ k

/-- **C99**: a content line of RFC 5545 that is no `BEGIN:` or `END:` is read as what it says if the parameters are understood. -/
theorem C99_line_read (l : Line) (h : l.Ok) (hf : ¬ l.Frame) (hu : ∀ p ∈ l.params, p.Understood) (rest : Str) :
    ∃ c, contentLine (l.str ++ rest) = .ok rest c ∧ Means l c := by
  obtain ⟨c, hc⟩ := exists_means l
  exact ⟨c, contentLine_ok.2 (good_line ⟨h, hf, hu⟩ hc rest), hc⟩

/-- What no parameter is read as. -/
theorem read_value {t rest : Str} {ps : List (Str × Str)} (h : ParamsText t ps rest) (ht : '\r' ∉ t) : ∀ q ∈ ps,
    '"' ∉ q.2 ∨ (';' ∉ q.2 ∧ ':' ∉ q.2 ∧ ∀ w, q.2 = '"' :: w → '"' ∉ w) := by
  induction h with
  | nil => intro q hq; cases hq
  | cons h1 _ ih =>
    intro q hq
    rcases List.mem_cons.1 hq with rfl | hq
    · cases h1 with
      | quoted _ h => exact .inl h
      | plain _ h2 h3 _ h4 => exact .inr ⟨h2, h3, fun w e => fun hw => h4 w e (by simp [hw])⟩
      | folded => exact absurd (by simp) ht
    · exact ih (fun h => ht (by simp [h])) q hq

theorem get_mem {ps : List (Str × Str)} {k v : Str} (h : lastValue ps k = some v) : (k, v) ∈ ps := by
  unfold lastValue at h
  cases hl : (ps.filter fun p => p.1 = k).getLast? with
  | none => rw [hl] at h; cases h
  | some q =>
    rw [hl] at h
    have := List.mem_of_getLast? hl
    rw [List.mem_filter] at this
    obtain ⟨a, b⟩ := q
    simp at h this
    obtain ⟨h2, rfl⟩ := this
    subst h
    exact h2

/-- **C99**: with a parameter that is not understood the line is not read as what it says, if it is read at all. -/
theorem C99_line (l : Line) (h : l.Ok) (hf : ¬ l.Frame) (hn : (l.params.map Param.name).Nodup) (rest : Str) :
    (∃ c, contentLine (l.str ++ rest) = .ok rest c ∧ Means l c) ↔ ∀ p ∈ l.params, p.Understood := by
  refine ⟨?_, fun hu => C99_line_read l h hf hu rest⟩
  rintro ⟨c, hc, h1, h2, h3, h4⟩ p hp
  obtain ⟨_, _, pt, ps, eol, e, hk, hpt, hv1, hv2, heol, _, hget⟩ := contentLine_ok.1 hc
  -- the parameters are read from their text
  have hpt' : pt = (l.params.map Param.str).flatten := by
    have e : (l.params.map Param.str).flatten ++ ':' :: (l.value ++ c!"\r\n") = pt ++ ':' :: (l.value ++ eol) := by
      rw [h1, h2] at e
      have : (l.name ++ ((l.params.map Param.str).flatten ++ ':' :: (l.value ++ c!"\r\n"))) ++ rest = (l.name ++ (pt ++ ':' :: (l.value ++ eol))) ++ rest := by
        simpa [Line.str] using e
      exact List.append_cancel_left (List.append_cancel_right this)
    rcases heol with rfl | rfl
    · exfalso
      have e2 : (l.params.map Param.str).flatten ++ (':' :: l.value) ++ ['\r'] = pt ++ (':' :: l.value) := by
        have : ((l.params.map Param.str).flatten ++ (':' :: l.value) ++ ['\r']) ++ ['\n'] = (pt ++ (':' :: l.value)) ++ ['\n'] := by simpa using e
        exact List.append_cancel_right this
      have := congrArg List.getLast? e2
      rw [List.getLast?_concat, List.getLast?_append] at this
      have hm : '\r' ∈ ':' :: l.value := by
        cases hl : (':' :: l.value).getLast? with
        | none => simp at hl
        | some c =>
          rw [hl] at this
          have : '\r' = c := by simpa using this
          exact List.mem_of_getLast? (this ▸ hl)
      rcases List.mem_cons.1 hm with hm | hm
      · revert hm; decide
      · exact h.2.2 _ hm control_cr.1
    · have : pt ++ (':' :: (l.value ++ c!"\r\n")) = (l.params.map Param.str).flatten ++ (':' :: (l.value ++ c!"\r\n")) := e.symm
      exact List.append_cancel_right this
  have hcr : '\r' ∉ pt := by
    rw [hpt']
    intro hm
    rw [List.mem_flatten] at hm
    obtain ⟨t, ht, hm⟩ := hm
    rw [List.mem_map] at ht
    obtain ⟨q, hq, rfl⟩ := ht
    simp only [Param.str, List.mem_append, List.cons_append, List.nil_append, List.mem_cons, List.not_mem_nil, or_false] at hm
    rcases hm with hm | ((hm | hm) | hm) <;> first | (revert hm; decide) | skip
    · exact (token_no (h.2.1 q hq).1).1 hm
    · exact raw_noControl (h.2.1 q hq) _ hm control_cr.1
  have hval : lastValue ps p.name = some p.meaning := by
    rw [← hget, h4]
    have hfil : ∀ {ps : List Param}, (ps.map Param.name).Nodup → p ∈ ps → (ps.filter fun q => decide (q.name = p.name)) = [p] := by
      intro ps
      induction ps with
      | nil => intro _ h; cases h
      | cons q ps ih =>
        intro hn hp
        rw [List.map_cons, List.nodup_cons] at hn
        rcases List.mem_cons.1 hp with rfl | hp
        · have : (ps.filter fun q => decide (q.name = p.name)) = [] := by
            rw [List.filter_eq_nil_iff]
            intro q hq
            simp only [decide_eq_true_eq]
            intro e
            exact hn.1 (e ▸ List.mem_map_of_mem hq)
          simp [this]
        · have : q.name ≠ p.name := fun e => hn.1 (e ▸ List.mem_map_of_mem hp)
          simp [this, ih hn.2 hp]
    unfold meaningOf
    rw [hfil hn hp]; rfl
  have hread := read_value hpt hcr _ (get_mem hval)
  simp only at hread
  have hpok := h.2.1 p hp
  obtain ⟨k, f, m⟩ := p
  cases f with
  | quoted s =>
    cases m with
    | nil => trivial
    | cons v m =>
      have hmean : Param.meaning ⟨k, .quoted s, v :: m⟩ = '"' :: (s ++ '"' :: (',' :: (v.str ++ (m.map fun v => c!"," ++ v.str).flatten))) := by
        simp [Param.meaning, Param.raw, ParamValue.str]
      rw [hmean] at hread
      rcases hread with hr | ⟨_, _, hr⟩
      · exact absurd (by simp) hr
      · exact absurd (by simp) (hr _ rfl)
  | text s =>
    intro t ht
    have hmem : ∀ c ∈ (ParamValue.quoted t).str, c ∈ Param.meaning ⟨k, .text s, m⟩ := fun c hc => mem_raw.2 (.inr ⟨_, ht, .inr hc⟩)
    rcases hread with hr | ⟨h5, h6, _⟩
    · exact absurd (hmem '"' (by simp [ParamValue.str])) hr
    · exact ⟨fun hc => h5 (hmem _ (by simp [ParamValue.str, hc])), fun hc => h6 (hmem _ (by simp [ParamValue.str, hc]))⟩

theorem control_char {d : Char} (h1 : 'A' ≤ d) (h2 : d ≤ 'z') : ¬ Control d := by
  have h1 : 65 ≤ d.toNat := h1
  have h2 : d.toNat ≤ 122 := h2
  unfold Control; omega

theorem control_char' {d : Char} (h1 : '0' ≤ d) (h2 : d ≤ '9') : ¬ Control d := by
  have h1 : 48 ≤ d.toNat := h1
  have h2 : d.toNat ≤ 57 := h2
  unfold Control; omega

theorem params_append : ∀ {ps : List Param} {t rest : Str} {as : List (Str × Str)}, (∀ p ∈ ps, p.Ok) → (∀ p ∈ ps, p.Understood) →
    (∀ c, (t ++ rest).head? = some c → c = ';' ∨ c = ':') → ParamsText t as rest →
    ParamsText ((ps.map Param.str).flatten ++ t) ((ps.map fun p => (p.name, p.meaning)) ++ as) rest
  | [], _, _, _, _, _, _, h => h
  | p :: ps, t, rest, as, h, hu, hr, hp => by
    rw [List.map_cons, List.map_cons, List.flatten_cons, List.append_assoc, List.cons_append]
    refine .cons (understood_text (h p (by simp)) (hu p (by simp)) ?_) (params_append (fun q hq => h q (by simp [hq])) (fun q hq => hu q (by simp [hq])) hr hp)
    cases ps with
    | nil => simpa using hr
    | cons q ps => intro c hc; simp [Param.str] at hc; exact .inl hc.symm

/-! ## Lines that are not read as what they say -/

theorem line_after_name (l : Line) (rest : Str) : ∃ x, l.str ++ rest = l.name ++ x ∧ x = (l.params.map Param.str).flatten ++ (':' :: (l.value ++ c!"\r\n" ++ rest)) ∧
    ∀ c, x.head? = some c → ¬ NameChar c := by
  refine ⟨_, by simp [Line.str], rfl, fun c hc => ?_⟩
  cases hps : l.params with
  | nil => rw [hps] at hc; simp at hc; subst hc; exact not_nameChar (by simp)
  | cons p ps => rw [hps] at hc; simp [Param.str] at hc; subst hc; exact not_nameChar (by simp)

theorem many_params {ps : List Param} {r r' : Str} {as : List (Str × Str)} (h : ∀ p ∈ ps, p.Ok) (hu : ∀ p ∈ ps, p.Understood)
    (hr : ∀ c, r.head? = some c → c = ';' ∨ c = ':') (hm : Nom.Many param r as r') :
    Nom.Many param ((ps.map Param.str).flatten ++ r) ((ps.map fun p => (p.name, p.meaning)) ++ as) r' := by
  induction ps with
  | nil => exact hm
  | cons p ps ih =>
    have hh : ∀ c, ((ps.map Param.str).flatten ++ r).head? = some c → c = ';' ∨ c = ':' := by
      cases ps with
      | nil => simpa using hr
      | cons q ps => intro c hc; simp [Param.str] at hc; exact .inl hc.symm
    rw [List.map_cons, List.map_cons, List.flatten_cons, List.append_assoc, List.cons_append]
    refine .cons (param_ok.2 ⟨p.str, rfl, understood_text (h p (by simp)) (hu p (by simp)) hh⟩) ?_ (ih (fun q hq => h q (by simp [hq])) (fun q hq => hu q (by simp [hq])))
    simp [Param.str]; omega

theorem bad_line {l : Line} (h : BadLine l) (rest r : Str) (c : ContentLine) : ¬ LineText (l.str ++ rest) r c := by
  obtain ⟨hok, hf, pre, p, post, s, hps, hu, hp, hm⟩ := h
  rintro ⟨_, _, pt, ps, eol, e, hk, hpt, _, _, _, _, _⟩
  obtain ⟨x, e1, e2, hx⟩ := line_after_name l rest
  have e3 : l.name ++ x = c.key ++ (pt ++ (':' :: (c.value ++ eol ++ r))) := by rw [← e1, e]; simp
  obtain ⟨_, e4⟩ := append_name_inj (token_name hok.1) hk hx (by
    intro d hd
    cases pt with
    | nil => simp at hd; subst hd; exact not_nameChar (by simp)
    | cons a pt =>
      simp at hd; subst hd
      generalize hq : a :: pt = q at hpt
      cases hpt with
      | nil => cases hq
      | cons h1 _ =>
        obtain ⟨t', rfl⟩ := h1.head
        rw [(List.cons.inj hq).1]; exact not_nameChar (by simp)) e3
  have hm1 : Nom.Many param x ps (':' :: (c.value ++ eol ++ r)) := (many_param (by simp)).2 ⟨pt, e4, by simpa using hpt⟩
  obtain ⟨k, f, m⟩ := p
  simp only at hp hm
  subst hp
  cases m with
  | nil => exact hm rfl
  | cons v m =>
    have hpok := hok.2.1 ⟨k, .quoted s, v :: m⟩ (by rw [hps]; simp)
    have hm2 : Nom.Many param x ((pre.map fun p => (p.name, p.meaning)) ++ [(k, s)])
        (',' :: (v.str ++ (m.map fun v => c!"," ++ v.str).flatten ++ (post.map Param.str).flatten ++ (':' :: (l.value ++ c!"\r\n" ++ rest)))) := by
      rw [e2, hps, List.map_append, List.flatten_append, List.append_assoc]
      refine many_params (fun q hq => hok.2.1 q (by rw [hps]; simp [hq])) hu ?_ ?_
      · intro d hd; simp [Param.str] at hd; exact .inl hd.symm
      · refine .cons (param_ok.2 ⟨c!";" ++ k ++ c!"=\"" ++ s ++ c!"\"", ?_, .quoted (token_name hpok.1) fun hq => (hpok.2.1 _ hq).2 rfl⟩) ?_ (.nil (param_err_of_head (by simp)))
        · simp [Param.str, Param.raw, ParamValue.str]
        · simp [Param.str, Param.raw, ParamValue.str]; omega
    have := (Nom.Many.det hm1 hm2).2
    simp at this

/-- **C99**: a line with several values of a parameter of which the first is quoted is not read. -/
theorem C99_line_refused (l : Line) (h : BadLine l) (rest : Str) : contentLine (l.str ++ rest) = .err := by
  cases hc : contentLine (l.str ++ rest) with
  | ok r c => exact absurd (contentLine_ok.1 hc) (bad_line h rest r c)
  | err => rfl
  | panic => exact absurd hc (contentLine_not_panic _)

/-- **C99**: a colon in a quoted value after a value without quotes ends the parameters, silently: what follows it is read as the value of the line. -/
theorem C99_line_cut (l : Line) (h : l.Ok) (hf : ¬ l.Frame) (pre : List Param) (p : Param) (post : List Param) (hps : l.params = pre ++ p :: post)
    (hu : ∀ q ∈ pre, q.Understood) (s : Str) (hp : p.first = .text s) (a b : Str) (hab : p.raw = a ++ c!":" ++ b) (ha : ';' ∉ a ∧ ':' ∉ a) (rest : Str) :
    ∃ c, contentLine (l.str ++ rest) = .ok rest c ∧ c.key = l.name ∧ c.value = b ++ (post.map Param.str).flatten ++ c!":" ++ l.value ∧ c.params.get? p.name = some a := by
  have hpok := h.2.1 p (by rw [hps]; simp)
  have hpost : ∀ d ∈ (post.map Param.str).flatten, ¬ Control d := by
    intro d hd
    rw [List.mem_flatten] at hd
    obtain ⟨t, ht, hd⟩ := hd
    rw [List.mem_map] at ht
    obtain ⟨q, hq, rfl⟩ := ht
    have hq := h.2.1 q (by rw [hps]; simp [hq])
    simp only [Param.str, List.mem_append, List.mem_cons, List.not_mem_nil, or_false, or_assoc] at hd
    rcases hd with rfl | hd | rfl | hd
    · unfold Control; decide
    · intro hc
      have := hq.1.2 d hd
      rcases this with h1 | h1 | h1 | rfl
      · exact control_char h1.1 (Char.le_trans h1.2 (by decide)) hc
      · exact control_char (Char.le_trans (by decide) h1.1) h1.2 hc
      · exact control_char' h1.1 h1.2 hc
      · revert hc; unfold Control; decide
    · unfold Control; decide
    · exact raw_noControl hq d hd
  have hb : ∀ d ∈ b, ¬ Control d := fun d hd => raw_noControl hpok d (by rw [hab]; simp [hd])
  have hval : ∀ d ∈ b ++ (post.map Param.str).flatten ++ c!":" ++ l.value, ¬ Control d := by
    intro d hd
    simp only [List.mem_append, List.mem_cons, List.not_mem_nil, or_false, or_assoc] at hd
    rcases hd with hd | hd | rfl | hd
    · exact hb d hd
    · exact hpost d hd
    · unfold Control; decide
    · exact h.2.2 d hd
  obtain ⟨hb1, he1⟩ := line_no_frame h hf rest
  have hah : ∀ w, a ≠ '"' :: w := by
    rintro w rfl
    obtain ⟨k, f, m⟩ := p
    simp only at hp
    subst hp
    cases s with
    | nil => cases m <;> simp [Param.raw, ParamValue.str] at hab
    | cons x s =>
      simp only [Param.raw, ParamValue.str, List.cons_append, List.cons.injEq] at hab
      exact (hpok.2.1 x (by simp)).2.1 hab.1
  have hacr : '\r' ∉ a := fun hc => raw_noControl hpok _ (by rw [hab]; simp [hc]) control_cr.1
  have hpt : ParamsText ((pre.map Param.str).flatten ++ (c!";" ++ p.name ++ c!"=" ++ a)) ((pre.map fun p => (p.name, p.meaning)) ++ [(p.name, a)])
      (c!":" ++ (b ++ (post.map Param.str).flatten ++ c!":" ++ l.value) ++ c!"\r\n" ++ rest) := by
    have hone : ParamsText (c!";" ++ p.name ++ c!"=" ++ a) [(p.name, a)] (c!":" ++ (b ++ (post.map Param.str).flatten ++ c!":" ++ l.value) ++ c!"\r\n" ++ rest) := by
      have := ParamsText.cons (t := c!";" ++ p.name ++ c!"=" ++ a) (k := p.name) (v := a) (ts := [])
        (rest := c!":" ++ (b ++ (post.map Param.str).flatten ++ c!":" ++ l.value) ++ c!"\r\n" ++ rest)
        (.plain (token_name hpok.1) ha.1 ha.2 (by simp) (fun w e => absurd e (hah w)) (fun hp => hacr (hp.subset (by simp)))) .nil
      simpa using this
    exact params_append (fun q hq => h.2.1 q (by rw [hps]; simp [hq])) hu (by simp) hone
  refine ⟨⟨l.name, SMap.ofPairs ((pre.map fun p => (p.name, p.meaning)) ++ [(p.name, a)]), b ++ (post.map Param.str).flatten ++ c!":" ++ l.value⟩,
    contentLine_ok.2 ⟨hb1, he1, _, _, c!"\r\n", ?_, token_name h.1, hpt, fun hc => hval _ hc control_cr.2, fun hc => hval _ hc control_cr.1, .inr rfl,
      SMap.ofPairs_wf _, fun k => SMap.get?_ofPairs _ k⟩, rfl, rfl, ?_⟩
  · simp [Line.str, hps, Param.str, hab]
  · show SMap.get? (SMap.ofPairs _) p.name = _
    rw [SMap.get?_ofPairs]
    simp [List.filter_append]

/-! ## Unfolding -/

theorem unfolds_le {s u u' : Str} (h : Abnf.Unfolds s u) (h' : Full.Unfolds s u') :
    u.length ≤ u'.length ∧ (['\r', '\n', '\t'] <:+: s → u.length < u'.length) ∧ (¬ ['\r', '\n', '\t'] <:+: s → u = u') := by
  induction h generalizing u' with
  | nil =>
    cases h'
    refine ⟨Nat.le_refl _, fun h => ?_, fun _ => rfl⟩
    have := h.length_le
    simp at this
  | @fold w r u hw _ ih =>
    rcases hw with rfl | rfl
    · cases h' with
      | keep h _ => exact absurd ⟨r, rfl⟩ h
      | fold h' =>
        obtain ⟨h1, h2, h3⟩ := ih h'
        have hi : ['\r', '\n', '\t'] <:+: '\r' :: '\n' :: ' ' :: r ↔ ['\r', '\n', '\t'] <:+: r := by
          simp [List.infix_cons_iff, List.cons_prefix_cons]
        exact ⟨h1, fun h => h2 (hi.1 h), fun h => h3 fun h' => h (hi.2 h')⟩
    · cases h' with
      | keep _ h' =>
        cases h' with
        | keep _ h' =>
          cases h' with
          | keep _ h' =>
            have := (ih h').1
            refine ⟨by simp; omega, fun _ => by simp; omega, fun h => absurd ⟨[], r, rfl⟩ h⟩
  | @keep c r u h1 h2 _ ih =>
    have hi : ['\r', '\n', '\t'] <:+: c :: r ↔ ['\r', '\n', '\t'] <:+: r := by
      rw [List.infix_cons_iff]
      exact ⟨fun h => h.resolve_left h2, .inr⟩
    cases h' with
    | fold => exact absurd ⟨_, rfl⟩ h1
    | keep _ h' =>
      obtain ⟨h1, h2, h3⟩ := ih h'
      rw [hi]
      exact ⟨by simp; omega, fun h => by have := h2 h; simp; omega, fun h => by rw [h3 h]⟩

/-- **C99**: ikal unfolds a text as RFC 5545 says exactly if none of its folds is made with a tab. -/
theorem C99_unfold (s : Str) : (∃ u, Full.Unfolds s u ∧ Abnf.Unfolds s u) ↔ ¬ c!"\r\n\t" <:+: s := by
  constructor
  · rintro ⟨u, h1, h2⟩ hi
    exact absurd ((unfolds_le h2 h1).2.1 hi) (Nat.lt_irrefl _)
  · intro hi
    have ex : ∀ n (s : Str), s.length ≤ n → ∃ u, Abnf.Unfolds s u := by
      intro n
      induction n with
      | zero => intro s h; cases s with
        | nil => exact ⟨[], .nil⟩
        | cons => simp at h
      | succ n ih =>
        intro s h
        cases s with
        | nil => exact ⟨[], .nil⟩
        | cons c r =>
          by_cases h1 : ['\r', '\n', ' '] <+: c :: r
          · obtain ⟨x, hx⟩ := h1
            obtain ⟨u, hu⟩ := ih x (by rw [← hx] at h; simp at h; omega)
            exact ⟨u, hx ▸ .fold (.inl rfl) hu⟩
          · by_cases h2 : ['\r', '\n', '\t'] <+: c :: r
            · obtain ⟨x, hx⟩ := h2
              obtain ⟨u, hu⟩ := ih x (by rw [← hx] at h; simp at h; omega)
              exact ⟨u, hx ▸ .fold (.inr rfl) hu⟩
            · obtain ⟨u, hu⟩ := ih r (by simpa using h)
              exact ⟨c :: u, .keep h1 h2 hu⟩
    obtain ⟨u, hu⟩ := ex _ s (Nat.le_refl _)
    have hu' : Full.Unfolds s (unfold s) := unfolds_iff.2 rfl
    exact ⟨_, hu', (unfolds_le hu hu').2.2 hi ▸ hu⟩

theorem unfolds_same {s u : Str} (h : Abnf.Unfolds s u) (hi : ¬ c!"\r\n\t" <:+: s) : Full.Unfolds s u := by
  have hu' : Full.Unfolds s (unfold s) := unfolds_iff.2 rfl
  exact (unfolds_le h hu').2.2 hi ▸ hu'

/-! ## Components -/

theorem means_block {lines : List Line} {ls : List ContentLine} (h : Pairs Means lines ls) (hg : ∀ l ∈ lines, GoodLine l) {rest : Str}
    (hr : c!"BEGIN:" <+: rest ∨ c!"END:" <+: rest) : LinesText ((lines.map Line.str).flatten ++ rest) ls rest := by
  induction h with
  | nil => exact lines_stop hr
  | cons h1 _ ih =>
    rw [List.map_cons, List.flatten_cons, List.append_assoc]
    exact .cons (good_line (hg _ (by simp)) h1 _) (ih fun l hl => hg l (by simp [hl]))

theorem exists_block : ∀ lines : List Line, ∃ ls, Pairs Means lines ls
  | [] => ⟨[], .nil⟩
  | l :: lines => let ⟨c, hc⟩ := exists_means l; let ⟨cs, hcs⟩ := exists_block lines; ⟨c :: cs, .cons hc hcs⟩

theorem block_iff {lines : List Line} (hg : ∀ l ∈ lines, GoodLine l) {rest : Str} (hr : c!"BEGIN:" <+: rest ∨ c!"END:" <+: rest) {ls : List ContentLine} {r : Str} :
    LinesText ((lines.map Line.str).flatten ++ rest) ls r ↔ Pairs Means lines ls ∧ r = rest := by
  constructor
  · intro h
    obtain ⟨ls', h'⟩ := exists_block lines
    obtain ⟨rfl, rfl⟩ := linesText_unique h (means_block h' hg hr)
    exact ⟨h', rfl⟩
  · rintro ⟨h, rfl⟩
    exact means_block h hg hr

theorem name_split {a b u v : Str} (ha : IsToken a) (hb : IsToken b) (h : a ++ c!"\r\n" ++ u = b ++ c!"\r\n" ++ v) : a = b ∧ u = v := by
  have gen : ∀ (a b : Str), '\r' ∉ a → '\r' ∉ b → a ++ '\r' :: '\n' :: u = b ++ '\r' :: '\n' :: v → a = b ∧ u = v := by
    intro a
    induction a with
    | nil =>
      intro b _ hb e
      cases b with
      | nil => simpa using e
      | cons c b => exact absurd ((List.cons.inj e).1 ▸ List.mem_cons_self) hb
    | cons c a ih =>
      intro b ha hb e
      cases b with
      | nil => exact absurd ((List.cons.inj e).1.symm ▸ List.mem_cons_self) ha
      | cons d b =>
        obtain ⟨e1, e2⟩ := List.cons.inj e
        obtain ⟨e3, e4⟩ := ih b (fun h => ha (by simp [h])) (fun h => hb (by simp [h])) e2
        exact ⟨by rw [e1, e3], e4⟩
  exact gen a b (token_no ha).1 (token_no hb).1 (by simpa using h)

theorem strs_stop (n : Str) : ∀ (ts : List Tree) (rest : Str), c!"BEGIN:" <+: Tree.strs ts ++ (c!"END:" ++ n ++ c!"\r\n" ++ rest) ∧ ts ≠ [] ∨
    c!"END:" <+: Tree.strs ts ++ (c!"END:" ++ n ++ c!"\r\n" ++ rest) ∧ ts = []
  | [], rest => .inr ⟨⟨n ++ c!"\r\n" ++ rest, by simp [Tree.strs]⟩, rfl⟩
  | .mk m ls us :: ts, rest => .inl ⟨⟨_, by simp only [Tree.strs, Tree.str, List.append_assoc]; rfl⟩, by simp⟩

/-- A frame and what is in it. -/
theorem tree_open {n name : Str} {lines : List Line} {parts : List Tree} (h : Tree.Good (.mk n lines parts)) (hn : IsToken name) {rest body : Str} {ls : List ContentLine} {r1 : Str} :
    ((Tree.mk n lines parts).str ++ rest = c!"BEGIN:" ++ name ++ c!"\r\n" ++ body ∧ LinesText body ls r1) ↔
      n = name ∧ body = (lines.map Line.str).flatten ++ (Tree.strs parts ++ (c!"END:" ++ n ++ c!"\r\n" ++ rest)) ∧ Pairs Means lines ls ∧
        r1 = Tree.strs parts ++ (c!"END:" ++ n ++ c!"\r\n" ++ rest) := by
  cases h with
  | mk h1 h2 h3 =>
    have hstop : c!"BEGIN:" <+: Tree.strs parts ++ (c!"END:" ++ n ++ c!"\r\n" ++ rest) ∨ c!"END:" <+: Tree.strs parts ++ (c!"END:" ++ n ++ c!"\r\n" ++ rest) :=
      (strs_stop n parts rest).imp And.left And.left
    constructor
    · rintro ⟨e, hl⟩
      have e' : n ++ c!"\r\n" ++ ((lines.map Line.str).flatten ++ (Tree.strs parts ++ (c!"END:" ++ n ++ c!"\r\n" ++ rest))) = name ++ c!"\r\n" ++ body := by
        have : c!"BEGIN:" ++ (n ++ c!"\r\n" ++ ((lines.map Line.str).flatten ++ (Tree.strs parts ++ (c!"END:" ++ n ++ c!"\r\n" ++ rest)))) = c!"BEGIN:" ++ (name ++ c!"\r\n" ++ body) := by
          simpa [Tree.str] using e
        exact List.append_cancel_left this
      obtain ⟨e1, e2⟩ := name_split h1 hn e'
      subst e2
      obtain ⟨a, b⟩ := (block_iff h2 hstop).1 hl
      exact ⟨e1, rfl, a, b⟩
    · rintro ⟨rfl, rfl, a, rfl⟩
      exact ⟨by simp [Tree.str], (block_iff h2 hstop).2 ⟨a, rfl⟩⟩

theorem leaf_tree {n name : Str} {lines : List Line} {parts : List Tree} (h : Tree.Good (.mk n lines parts)) (hn : IsToken name) {rest : Str} {ls : List ContentLine} {r : Str} :
    LeafText name ((Tree.mk n lines parts).str ++ rest) ls r ↔ n = name ∧ parts = [] ∧ Pairs Means lines ls ∧ r = rest := by
  unfold LeafText
  simp only [tree_open h hn]
  constructor
  · rintro ⟨body, rfl, rfl, hp, e⟩
    rcases strs_stop n parts rest with ⟨hb, _⟩ | ⟨_, rfl⟩
    · rw [← e] at hb
      exact (not_begin_end hb ⟨n ++ c!"\r\n" ++ r, by simp⟩).elim
    · refine ⟨rfl, rfl, hp, ?_⟩
      have : (c!"END:" ++ n ++ c!"\r\n") ++ r = (c!"END:" ++ n ++ c!"\r\n") ++ rest := by simpa [Tree.strs] using e
      exact List.append_cancel_left this
  · rintro ⟨rfl, rfl, hp, rfl⟩
    exact ⟨_, rfl, rfl, hp, by simp [Tree.strs]⟩

theorem isLeaf_iff {α : Type} {name : Str} (hn : IsToken name) (From : List ContentLine → α → Prop) {t : Tree} (h : t.Good) {rest r : Str} {v : α} :
    (∃ ls, LeafText name (t.str ++ rest) ls r ∧ From ls v) ↔ IsLeaf name From t v ∧ r = rest := by
  obtain ⟨n, lines, parts⟩ := t
  simp only [leaf_tree h hn]
  constructor
  · rintro ⟨ls, ⟨rfl, rfl, hp, rfl⟩, hf⟩
    exact ⟨⟨lines, ls, rfl, hp, hf⟩, rfl⟩
  · rintro ⟨⟨lines', ls, e, hp, hf⟩, rfl⟩
    injection e with e1 e2 e3
    subst e1 e2 e3
    exact ⟨ls, ⟨rfl, rfl, hp, rfl⟩, hf⟩

/-- The parts of a component. -/
theorem seq_trees {α : Type} {T : Str → α → Str → Prop} {R : Tree → α → Prop} (hT : ∀ i a r, T i a r → c!"BEGIN:" <+: i) {tail tail' : Str} (he : c!"END:" <+: tail) (he' : c!"END:" <+: tail') :
    ∀ {ts : List Tree} {as : List α}, (∀ t ∈ ts, ∀ a r0 r, T (t.str ++ r0) a r ↔ R t a ∧ r = r0) →
      (SeqText T (Tree.strs ts ++ tail) as tail' ↔ Pairs R ts as ∧ tail' = tail)
  | [], as, _ => by
    constructor
    · intro h
      cases h with
      | nil => exact ⟨.nil, rfl⟩
      | cons h _ => exact (not_begin_end (hT _ _ _ h) (by simpa [Tree.strs] using he)).elim
    · rintro ⟨h, rfl⟩
      cases h
      exact .nil
  | t :: ts, as, hR => by
    have ih : ∀ as, SeqText T (Tree.strs ts ++ tail) as tail' ↔ Pairs R ts as ∧ tail' = tail := fun as => seq_trees hT he he' fun t ht => hR t (by simp [ht])
    have ht := hR t (by simp)
    simp only [Tree.strs, List.append_assoc]
    constructor
    · intro h
      generalize hq : t.str ++ (Tree.strs ts ++ tail) = q at h
      cases h with
      | nil =>
        obtain ⟨n, ls, us⟩ := t
        subst hq
        exact (not_begin_end ⟨_, by simp only [Tree.str, List.append_assoc]; rfl⟩ he').elim
      | cons h1 h2 =>
        subst hq
        obtain ⟨hr, rfl⟩ := (ht _ _ _).1 h1
        obtain ⟨hp, e⟩ := (ih _).1 h2
        exact ⟨.cons hr hp, e⟩
    · rintro ⟨h, e⟩
      cases h with
      | cons h1 h2 => exact .cons ((ht _ _ _).2 ⟨h1, rfl⟩) ((ih _).2 ⟨h2, e⟩)

section
variable [Platform]

theorem alarm_tree {t : Tree} (h : t.Good) (v : VAlarm) (rest r : Str) : Full.AlarmText (t.str ++ rest) v r ↔ IsLeaf c!"VALARM" Full.VAlarmFrom t v ∧ r = rest :=
  isLeaf_iff ⟨by decide, by unfold TokenChar; decide⟩ Full.VAlarmFrom h

theorem todo_tree {t : Tree} (h : t.Good) (v : VTodo) (rest r : Str) : Full.TodoText (t.str ++ rest) v r ↔ IsLeaf c!"VTODO" Full.VTodoFrom t v ∧ r = rest :=
  isLeaf_iff ⟨by decide, by unfold TokenChar; decide⟩ Full.VTodoFrom h

theorem journal_tree {t : Tree} (h : t.Good) (v : VJournal) (rest r : Str) : Full.JournalText (t.str ++ rest) v r ↔ IsLeaf c!"VJOURNAL" Full.VJournalFrom t v ∧ r = rest :=
  isLeaf_iff ⟨by decide, by unfold TokenChar; decide⟩ Full.VJournalFrom h

theorem freebusy_tree {t : Tree} (h : t.Good) (v : VFreebusy) (rest r : Str) : Full.FreebusyText (t.str ++ rest) v r ↔ IsLeaf c!"VFREEBUSY" Full.VFreebusyFrom t v ∧ r = rest :=
  isLeaf_iff ⟨by decide, by unfold TokenChar; decide⟩ Full.VFreebusyFrom h

theorem standard_tree {t : Tree} (h : t.Good) (v : Standard) (rest r : Str) : Full.StandardText (t.str ++ rest) v r ↔ IsLeaf c!"STANDARD" Full.StandardFrom t v ∧ r = rest :=
  isLeaf_iff ⟨by decide, by unfold TokenChar; decide⟩ Full.StandardFrom h

theorem daylight_tree {t : Tree} (h : t.Good) (v : Daylight) (rest r : Str) : Full.DaylightText (t.str ++ rest) v r ↔ IsLeaf c!"DAYLIGHT" Full.DaylightFrom t v ∧ r = rest :=
  isLeaf_iff ⟨by decide, by unfold TokenChar; decide⟩ Full.DaylightFrom h

theorem leaf_begin {name i r : Str} {ls : List ContentLine} (h : LeafText name i ls r) : c!"BEGIN:" <+: i := by
  obtain ⟨body, rfl, _⟩ := h
  exact ⟨name ++ c!"\r\n" ++ body, by simp⟩

theorem good_parts {n : Str} {ls : List Line} {ts : List Tree} (h : Tree.Good (.mk n ls ts)) : ∀ t ∈ ts, t.Good := by
  cases h with | mk _ _ h => exact h

theorem event_tree {t : Tree} (h : t.Good) (v : VEvent) (rest r : Str) : Full.EventText (t.str ++ rest) v r ↔ IsEvent t v ∧ r = rest := by
  obtain ⟨n, lines, parts⟩ := t
  have hopen := @tree_open n c!"VEVENT" lines parts h ⟨by decide, by unfold TokenChar; decide⟩ rest
  have hseq := fun (tail tail' : Str) he he' as => @seq_trees VAlarm Full.AlarmText (IsLeaf c!"VALARM" Full.VAlarmFrom) (fun i a r h => leaf_begin h.choose_spec.1) tail tail' he he' parts as
    fun t ht a r0 r => alarm_tree (good_parts h t ht) a r0 r
  constructor
  · rintro ⟨body, ls, r1, e, hl, hs, hf⟩
    obtain ⟨rfl, _, hp, rfl⟩ := hopen.1 ⟨by rw [e]; rfl, hl⟩
    obtain ⟨ha, e2⟩ := (hseq _ _ ⟨_, rfl⟩ ⟨c!"VEVENT\r\n" ++ r, by simp⟩ _).1 hs
    have : c!"END:VEVENT\r\n" ++ r = c!"END:VEVENT\r\n" ++ rest := e2
    exact ⟨⟨lines, ls, parts, rfl, hp, hf, ha⟩, List.append_cancel_left this⟩
  · rintro ⟨⟨lines', ls, parts', e, hp, hf, ha⟩, rfl⟩
    injection e with e1 e2 e3
    subst e1 e2 e3
    obtain ⟨e, hl⟩ := hopen.2 ⟨rfl, rfl, hp, rfl⟩
    exact ⟨_, ls, _, e, hl, (hseq _ _ ⟨_, rfl⟩ ⟨c!"VEVENT\r\n" ++ r, by simp⟩ _).2 ⟨ha, rfl⟩, hf⟩

theorem tzPart_tree {t : Tree} (h : t.Good) (v : TzPart) (rest r : Str) : Full.TzPartText (t.str ++ rest) v r ↔ IsTzPart t v ∧ r = rest := by
  cases v with
  | standard s => exact standard_tree h s rest r
  | daylight d => exact daylight_tree h d rest r

theorem timezone_tree {t : Tree} (h : t.Good) (v : VTimezone) (rest r : Str) : Full.TimezoneText (t.str ++ rest) v r ↔ IsTimezone t v ∧ r = rest := by
  obtain ⟨n, lines, parts⟩ := t
  have hopen := @tree_open n c!"VTIMEZONE" lines parts h ⟨by decide, by unfold TokenChar; decide⟩ rest
  have hseq := fun (tail tail' : Str) he he' as => @seq_trees TzPart Full.TzPartText IsTzPart
    (fun i a r h => by cases a <;> exact leaf_begin h.choose_spec.1) tail tail' he he' parts as fun t ht a r0 r => tzPart_tree (good_parts h t ht) a r0 r
  constructor
  · rintro ⟨body, ls, r1, ps, e, hl, hs, hf, h1, h2⟩
    obtain ⟨rfl, _, hp, rfl⟩ := hopen.1 ⟨by rw [e]; rfl, hl⟩
    obtain ⟨ha, e2⟩ := (hseq _ _ ⟨_, rfl⟩ ⟨c!"VTIMEZONE\r\n" ++ r, by simp⟩ _).1 hs
    have : c!"END:VTIMEZONE\r\n" ++ r = c!"END:VTIMEZONE\r\n" ++ rest := e2
    exact ⟨⟨lines, ls, parts, ps, rfl, hp, hf, ha, h1, h2⟩, List.append_cancel_left this⟩
  · rintro ⟨⟨lines', ls, parts', ps, e, hp, hf, ha, h1, h2⟩, rfl⟩
    injection e with e1 e2 e3
    subst e1 e2 e3
    obtain ⟨e, hl⟩ := hopen.2 ⟨rfl, rfl, hp, rfl⟩
    exact ⟨_, ls, _, ps, e, hl, (hseq _ _ ⟨_, rfl⟩ ⟨c!"VTIMEZONE\r\n" ++ r, by simp⟩ _).2 ⟨ha, rfl⟩, hf, h1, h2⟩

theorem component_tree {t : Tree} (h : t.Good) (v : Component) (rest r : Str) : Full.ComponentText (t.str ++ rest) v r ↔ IsComponent t v ∧ r = rest := by
  cases v with
  | alarm c => exact alarm_tree h c rest r
  | event c => exact event_tree h c rest r
  | freebusy c => exact freebusy_tree h c rest r
  | journal c => exact journal_tree h c rest r
  | timezone c => exact timezone_tree h c rest r
  | todo c => exact todo_tree h c rest r

theorem full_component_begin {i r : Str} {v : Component} (h : Full.ComponentText i v r) : c!"BEGIN:" <+: i := by
  cases v with
  | alarm c => exact leaf_begin h.choose_spec.1
  | event c => obtain ⟨body, _, _, rfl, _⟩ := h; exact ⟨c!"VEVENT\r\n" ++ body, by simp⟩
  | freebusy c => exact leaf_begin h.choose_spec.1
  | journal c => exact leaf_begin h.choose_spec.1
  | timezone c => obtain ⟨body, _, _, _, rfl, _⟩ := h; exact ⟨c!"VTIMEZONE\r\n" ++ body, by simp⟩
  | todo c => exact leaf_begin h.choose_spec.1

theorem calendar_tree {t : Tree} (h : t.Good) (v : VCalendar) (rest : Str) : (∃ cs r, Full.CalendarText (t.str ++ rest) v cs r) ↔ IsCalendar t v := by
  obtain ⟨n, lines, parts⟩ := t
  have hopen := @tree_open n c!"VCALENDAR" lines parts h ⟨by decide, by unfold TokenChar; decide⟩ rest
  have hseq := fun (tail tail' : Str) he he' as => @seq_trees Component Full.ComponentText IsComponent
    (fun i a r h => full_component_begin h) tail tail' he he' parts as fun t ht a r0 r => component_tree (good_parts h t ht) a r0 r
  constructor
  · rintro ⟨cs, r, body, ls, r1, e, hl, hs, hf, h1⟩
    obtain ⟨rfl, _, hp, rfl⟩ := hopen.1 ⟨by rw [e]; rfl, hl⟩
    obtain ⟨ha, _⟩ := (hseq _ _ ⟨_, rfl⟩ ⟨c!"VCALENDAR" ++ r, by simp⟩ _).1 hs
    exact ⟨lines, ls, parts, cs, rfl, hp, hf, ha, h1⟩
  · rintro ⟨lines', ls, parts', cs, e, hp, hf, ha, h1⟩
    injection e with e1 e2 e3
    subst e1 e2 e3
    obtain ⟨e, hl⟩ := hopen.2 ⟨rfl, rfl, hp, rfl⟩
    exact ⟨cs, c!"\r\n" ++ rest, _, ls, _, e, hl, (hseq _ _ ⟨_, rfl⟩ ⟨c!"VCALENDAR\r\n" ++ rest, by simp⟩ _).2 ⟨ha, rfl⟩, hf, h1⟩

theorem by_tree {α : Type} {T : Str → α → Str → Prop} {R : Prop} {v : α} {s u : Str} (h : Abnf.Unfolds s u) (hi : ¬ c!"\r\n\t" <:+: s)
    (hR : (∃ r, T u v r) ↔ R) : (∃ u r, Full.Unfolds s u ∧ T u v r) ↔ R := by
  have hu := unfolds_same h hi
  rw [← hR]
  constructor
  · rintro ⟨u', r, hu', ht⟩
    rw [unfolds_iff] at hu hu'
    exact ⟨r, hu ▸ hu' ▸ ht⟩
  · rintro ⟨r, ht⟩
    exact ⟨u, r, hu, ht⟩

theorem ex_rest {P : Prop} {rest : Str} {Q : Str → Prop} (h : ∀ r, Q r ↔ P ∧ r = rest) : (∃ r, Q r) ↔ P :=
  ⟨fun ⟨r, hr⟩ => ((h r).1 hr).1, fun hp => ⟨rest, (h rest).2 ⟨hp, rfl⟩⟩⟩

/-- **C99** for an alarm: an RFC 5545 text is read as an alarm exactly if that is what it says. -/
theorem C99_VAlarm (t : Tree) (h : t.Good) (s rest : Str) (hs : Abnf.Unfolds s (t.str ++ rest)) (hi : ¬ c!"\r\n\t" <:+: s) (v : VAlarm) :
    VAlarm.ofStr s = .ok v ↔ IsLeaf c!"VALARM" Full.VAlarmFrom t v :=
  (C76_VAlarm s v).trans (by_tree hs hi (ex_rest (alarm_tree h v rest)))

/-- **C99** for a to-do: an RFC 5545 text is read as a to-do exactly if that is what it says. -/
theorem C99_VTodo (t : Tree) (h : t.Good) (s rest : Str) (hs : Abnf.Unfolds s (t.str ++ rest)) (hi : ¬ c!"\r\n\t" <:+: s) (v : VTodo) :
    VTodo.ofStr s = .ok v ↔ IsLeaf c!"VTODO" Full.VTodoFrom t v :=
  (C76_VTodo s v).trans (by_tree hs hi (ex_rest (todo_tree h v rest)))

/-- **C99** for a journal entry: an RFC 5545 text is read as a journal entry exactly if that is what it says. -/
theorem C99_VJournal (t : Tree) (h : t.Good) (s rest : Str) (hs : Abnf.Unfolds s (t.str ++ rest)) (hi : ¬ c!"\r\n\t" <:+: s) (v : VJournal) :
    VJournal.ofStr s = .ok v ↔ IsLeaf c!"VJOURNAL" Full.VJournalFrom t v :=
  (C76_VJournal s v).trans (by_tree hs hi (ex_rest (journal_tree h v rest)))

/-- **C99** for a free/busy time: an RFC 5545 text is read as a free/busy time exactly if that is what it says. -/
theorem C99_VFreebusy (t : Tree) (h : t.Good) (s rest : Str) (hs : Abnf.Unfolds s (t.str ++ rest)) (hi : ¬ c!"\r\n\t" <:+: s) (v : VFreebusy) :
    VFreebusy.ofStr s = .ok v ↔ IsLeaf c!"VFREEBUSY" Full.VFreebusyFrom t v :=
  (C76_VFreebusy s v).trans (by_tree hs hi (ex_rest (freebusy_tree h v rest)))

/-- **C99** for standard time: an RFC 5545 text is read as standard time exactly if that is what it says. -/
theorem C99_Standard (t : Tree) (h : t.Good) (s rest : Str) (hs : Abnf.Unfolds s (t.str ++ rest)) (hi : ¬ c!"\r\n\t" <:+: s) (v : Standard) :
    Standard.ofStr s = .ok v ↔ IsLeaf c!"STANDARD" Full.StandardFrom t v :=
  (C76_Standard s v).trans (by_tree hs hi (ex_rest (standard_tree h v rest)))

/-- **C99** for daylight saving time: an RFC 5545 text is read as daylight saving time exactly if that is what it says. -/
theorem C99_Daylight (t : Tree) (h : t.Good) (s rest : Str) (hs : Abnf.Unfolds s (t.str ++ rest)) (hi : ¬ c!"\r\n\t" <:+: s) (v : Daylight) :
    Daylight.ofStr s = .ok v ↔ IsLeaf c!"DAYLIGHT" Full.DaylightFrom t v :=
  (C76_Daylight s v).trans (by_tree hs hi (ex_rest (daylight_tree h v rest)))

/-- **C99** for an event: an RFC 5545 text is read as an event exactly if that is what it says. -/
theorem C99_VEvent (t : Tree) (h : t.Good) (s rest : Str) (hs : Abnf.Unfolds s (t.str ++ rest)) (hi : ¬ c!"\r\n\t" <:+: s) (v : VEvent) :
    VEvent.ofStr s = .ok v ↔ IsEvent t v :=
  (C76_VEvent s v).trans (by_tree hs hi (ex_rest (event_tree h v rest)))

/-- **C99** for a time zone: an RFC 5545 text is read as a time zone exactly if that is what it says. -/
theorem C99_VTimezone (t : Tree) (h : t.Good) (s rest : Str) (hs : Abnf.Unfolds s (t.str ++ rest)) (hi : ¬ c!"\r\n\t" <:+: s) (v : VTimezone) :
    VTimezone.ofStr s = .ok v ↔ IsTimezone t v :=
  (C76_VTimezone s v).trans (by_tree hs hi (ex_rest (timezone_tree h v rest)))

/-- **C99** for a calendar: an RFC 5545 text is read as a calendar exactly if that is what it says. -/
theorem C99_VCalendar (t : Tree) (h : t.Good) (s rest : Str) (hs : Abnf.Unfolds s (t.str ++ rest)) (hi : ¬ c!"\r\n\t" <:+: s) (v : VCalendar) :
    VCalendar.ofStr s = .ok v ↔ IsCalendar t v := by
  rw [C76_VCalendar, ← calendar_tree h v rest]
  have hu := unfolds_same hs hi
  constructor
  · rintro ⟨u', cs, r, hu', ht⟩
    rw [unfolds_iff] at hu hu'
    exact ⟨cs, r, hu ▸ hu' ▸ ht⟩
  · rintro ⟨cs, r, ht⟩
    exact ⟨_, cs, r, hu, ht⟩

/-! ### Components with a line that is not read -/

theorem spoilt_lines {pre post : List Line} {l : Line} (hp : ∀ x ∈ pre, GoodLine x) (hl : BadLine l) {rest r : Str} {ls : List ContentLine}
    (h : LinesText (((pre ++ l :: post).map Line.str).flatten ++ rest) ls r) : ¬ c!"BEGIN:" <+: r ∧ ¬ c!"END:" <+: r := by
  have key : ∀ {pre : List Line} {cs : List ContentLine}, Pairs Means pre cs → (∀ x ∈ pre, GoodLine x) →
      LinesText ((pre.map Line.str).flatten ++ (l.str ++ ((post.map Line.str).flatten ++ rest))) cs (l.str ++ ((post.map Line.str).flatten ++ rest)) := by
    intro pre cs hc
    induction hc with
    | nil => exact fun _ => .nil fun r c => bad_line hl _ r c
    | cons h1 _ ih =>
      intro hp
      rw [List.map_cons, List.flatten_cons, List.append_assoc]
      exact .cons (good_line (hp _ (by simp)) h1 _) (ih fun l hl => hp l (by simp [hl]))
  obtain ⟨cs, hcs⟩ := exists_block pre
  have := key hcs hp
  simp only [List.map_append, List.map_cons, List.flatten_append, List.flatten_cons, List.append_assoc] at h
  obtain ⟨_, rfl⟩ := linesText_unique h this
  exact line_no_frame hl.1 hl.2.1 _

theorem strs_append (ts : List Tree) (t : Tree) (us : List Tree) (rest : Str) : 
    Tree.strs (ts ++ t :: us) ++ rest = Tree.strs ts ++ (t.str ++ (Tree.strs us ++ rest)) := by
  induction ts with
  | nil => simp [Tree.strs]
  | cons a ts ih => simp [Tree.strs, ih]

/-- Where the lines of a spoilt component end. -/
theorem spoilt_open {t : Tree} (h : t.Spoilt) {name : Str} (hn : IsToken name) {rest body : Str} {ls : List ContentLine} {r1 : Str}
    (e : t.str ++ rest = c!"BEGIN:" ++ name ++ c!"\r\n" ++ body) (hl : LinesText body ls r1) :
    (¬ c!"BEGIN:" <+: r1 ∧ ¬ c!"END:" <+: r1) ∨
      ∃ pre t post tail, (∀ x ∈ pre, Tree.Good x) ∧ Tree.Spoilt t ∧ r1 = Tree.strs pre ++ (t.str ++ (Tree.strs post ++ tail)) := by
  have e0 : ∀ (n : Str) (lines : List Line) (parts : List Tree), IsToken n → (Tree.mk n lines parts).str ++ rest = c!"BEGIN:" ++ name ++ c!"\r\n" ++ body →
      body = (lines.map Line.str).flatten ++ (Tree.strs parts ++ (c!"END:" ++ n ++ c!"\r\n" ++ rest)) := by
    intro n lines parts h1 e
    have e' : n ++ c!"\r\n" ++ ((lines.map Line.str).flatten ++ (Tree.strs parts ++ (c!"END:" ++ n ++ c!"\r\n" ++ rest))) = name ++ c!"\r\n" ++ body := by
      have : c!"BEGIN:" ++ (n ++ c!"\r\n" ++ ((lines.map Line.str).flatten ++ (Tree.strs parts ++ (c!"END:" ++ n ++ c!"\r\n" ++ rest)))) = c!"BEGIN:" ++ (name ++ c!"\r\n" ++ body) := by
        simpa [Tree.str] using e
      exact List.append_cancel_left this
    exact (name_split h1 hn e').2.symm
  cases h with
  | line h1 h2 h3 =>
    rw [e0 _ _ _ h1 e] at hl
    exact .inl (spoilt_lines h2 h3 hl)
  | @part n lines pre post t h1 h2 h3 h4 =>
    rw [e0 _ _ _ h1 e] at hl
    have hstop := (strs_stop n (pre ++ t :: post) rest).imp And.left And.left
    obtain ⟨_, rfl⟩ := (block_iff h2 hstop).1 hl
    exact .inr ⟨pre, t, post, _, h3, h4, strs_append pre t post _⟩

theorem tree_begin (t : Tree) (rest : Str) : c!"BEGIN:" <+: t.str ++ rest := by
  obtain ⟨n, ls, us⟩ := t
  exact ⟨_, by simp only [Tree.str, List.append_assoc]; rfl⟩

theorem strs_begin (pre : List Tree) (t : Tree) (rest : Str) : c!"BEGIN:" <+: Tree.strs pre ++ (t.str ++ rest) := by
  cases pre with
  | nil => exact tree_begin t rest
  | cons a pre => rw [Tree.strs, List.append_assoc]; exact tree_begin a _

theorem leaf_spoilt {t : Tree} (h : t.Spoilt) {name : Str} (hn : IsToken name) {rest r : Str} {ls : List ContentLine} : ¬ LeafText name (t.str ++ rest) ls r := by
  rintro ⟨body, e, hl⟩
  have he : c!"END:" <+: c!"END:" ++ name ++ c!"\r\n" ++ r := ⟨name ++ c!"\r\n" ++ r, by simp⟩
  rcases spoilt_open h hn e hl with ⟨_, h2⟩ | ⟨pre, t, post, tail, _, _, h2⟩
  · exact h2 he
  · rw [h2] at he
    exact not_begin_end (strs_begin _ _ _) he

theorem seq_spoilt {α : Type} {T : Str → α → Str → Prop} {R : Tree → α → Prop} (hT : ∀ i a r, T i a r → c!"BEGIN:" <+: i)
    (hG : ∀ t : Tree, t.Good → ∀ a r0 r, T (t.str ++ r0) a r ↔ R t a ∧ r = r0) (hS : ∀ t : Tree, t.Spoilt → ∀ a r0 r, ¬ T (t.str ++ r0) a r)
    {t : Tree} (h : t.Spoilt) {name : Str} (hn : IsToken name) {rest body : Str} {ls : List ContentLine} {r1 r : Str} {as : List α}
    (e : t.str ++ rest = c!"BEGIN:" ++ name ++ c!"\r\n" ++ body) (hl : LinesText body ls r1) (he : c!"END:" <+: r) : ¬ SeqText T r1 as r := by
  intro hs
  rcases spoilt_open h hn e hl with ⟨h1, h2⟩ | ⟨pre, t, post, tail, h1, h2, rfl⟩
  · cases hs with
    | nil => exact h2 he
    | cons h3 _ => exact h1 (hT _ _ _ h3)
  · clear e hl
    induction pre generalizing as with
    | nil =>
      generalize hq : Tree.strs [] ++ (t.str ++ (Tree.strs post ++ tail)) = q at hs
      cases hs with
      | nil => subst hq; exact not_begin_end (strs_begin _ _ _) he
      | cons h3 _ => subst hq; exact hS t h2 _ _ _ h3
    | cons a pre ih =>
      generalize hq : Tree.strs (a :: pre) ++ (t.str ++ (Tree.strs post ++ tail)) = q at hs
      cases hs with
      | nil => subst hq; exact not_begin_end (strs_begin _ _ _) he
      | cons h3 h4 =>
        subst hq
        rw [Tree.strs, List.append_assoc] at h3
        obtain ⟨_, rfl⟩ := (hG a (h1 a (by simp)) _ _ _).1 h3
        exact ih (fun x hx => h1 x (by simp [hx])) h4

theorem alarm_spoilt (t : Tree) (h : t.Spoilt) (v : VAlarm) (rest r : Str) : ¬ Full.AlarmText (t.str ++ rest) v r :=
  fun ⟨_, hl, _⟩ => leaf_spoilt h ⟨by decide, by unfold TokenChar; decide⟩ hl

theorem todo_spoilt (t : Tree) (h : t.Spoilt) (v : VTodo) (rest r : Str) : ¬ Full.TodoText (t.str ++ rest) v r :=
  fun ⟨_, hl, _⟩ => leaf_spoilt h ⟨by decide, by unfold TokenChar; decide⟩ hl

theorem journal_spoilt (t : Tree) (h : t.Spoilt) (v : VJournal) (rest r : Str) : ¬ Full.JournalText (t.str ++ rest) v r :=
  fun ⟨_, hl, _⟩ => leaf_spoilt h ⟨by decide, by unfold TokenChar; decide⟩ hl

theorem freebusy_spoilt (t : Tree) (h : t.Spoilt) (v : VFreebusy) (rest r : Str) : ¬ Full.FreebusyText (t.str ++ rest) v r :=
  fun ⟨_, hl, _⟩ => leaf_spoilt h ⟨by decide, by unfold TokenChar; decide⟩ hl

theorem standard_spoilt (t : Tree) (h : t.Spoilt) (v : Standard) (rest r : Str) : ¬ Full.StandardText (t.str ++ rest) v r :=
  fun ⟨_, hl, _⟩ => leaf_spoilt h ⟨by decide, by unfold TokenChar; decide⟩ hl

theorem daylight_spoilt (t : Tree) (h : t.Spoilt) (v : Daylight) (rest r : Str) : ¬ Full.DaylightText (t.str ++ rest) v r :=
  fun ⟨_, hl, _⟩ => leaf_spoilt h ⟨by decide, by unfold TokenChar; decide⟩ hl

theorem event_spoilt (t : Tree) (h : t.Spoilt) (v : VEvent) (rest r : Str) : ¬ Full.EventText (t.str ++ rest) v r := by
  rintro ⟨body, ls, r1, e, hl, hs, _⟩
  exact seq_spoilt (fun i a r h => leaf_begin h.choose_spec.1) (fun t h => alarm_tree h) alarm_spoilt h (name := c!"VEVENT") ⟨by decide, by unfold TokenChar; decide⟩
    (by rw [e]; rfl) hl ⟨c!"VEVENT\r\n" ++ r, by simp⟩ hs

theorem timezone_spoilt (t : Tree) (h : t.Spoilt) (v : VTimezone) (rest r : Str) : ¬ Full.TimezoneText (t.str ++ rest) v r := by
  rintro ⟨body, ls, r1, ps, e, hl, hs, _⟩
  exact seq_spoilt (fun i a r h => by cases a <;> exact leaf_begin h.choose_spec.1) (fun t h => tzPart_tree h)
    (fun t h a r0 r => by cases a with | standard s => exact standard_spoilt t h s r0 r | daylight d => exact daylight_spoilt t h d r0 r)
    h (name := c!"VTIMEZONE") ⟨by decide, by unfold TokenChar; decide⟩
    (by rw [e]; rfl) hl ⟨c!"VTIMEZONE\r\n" ++ r, by simp⟩ hs

theorem component_spoilt (t : Tree) (h : t.Spoilt) (v : Component) (rest r : Str) : ¬ Full.ComponentText (t.str ++ rest) v r := by
  cases v with
  | alarm c => exact alarm_spoilt t h c rest r
  | event c => exact event_spoilt t h c rest r
  | freebusy c => exact freebusy_spoilt t h c rest r
  | journal c => exact journal_spoilt t h c rest r
  | timezone c => exact timezone_spoilt t h c rest r
  | todo c => exact todo_spoilt t h c rest r

theorem calendar_spoilt (t : Tree) (h : t.Spoilt) (v : VCalendar) (cs : List Component) (rest r : Str) : ¬ Full.CalendarText (t.str ++ rest) v cs r := by
  rintro ⟨body, ls, r1, e, hl, hs, _⟩
  exact seq_spoilt (fun i a r h => full_component_begin h) (fun t h => component_tree h) component_spoilt h (name := c!"VCALENDAR") ⟨by decide, by unfold TokenChar; decide⟩
    (by rw [e]; rfl) hl ⟨c!"VCALENDAR" ++ r, by simp⟩ hs

/-- **C99**: an RFC 5545 text with a line that is not read, here or in a part, is not read as an alarm. -/
theorem C99_VAlarm_refused (t : Tree) (h : t.Spoilt) (s rest : Str) (hs : Abnf.Unfolds s (t.str ++ rest)) (hi : ¬ c!"\r\n\t" <:+: s) (v : VAlarm) :
    VAlarm.ofStr s ≠ .ok v :=
  fun hv => ((by_tree hs hi (R := False) ⟨fun ⟨r, hr⟩ => alarm_spoilt t h v rest r hr, False.elim⟩).1 ((C76_VAlarm s v).1 hv))

/-- **C99**: an RFC 5545 text with a line that is not read, here or in a part, is not read as a to-do. -/
theorem C99_VTodo_refused (t : Tree) (h : t.Spoilt) (s rest : Str) (hs : Abnf.Unfolds s (t.str ++ rest)) (hi : ¬ c!"\r\n\t" <:+: s) (v : VTodo) :
    VTodo.ofStr s ≠ .ok v :=
  fun hv => ((by_tree hs hi (R := False) ⟨fun ⟨r, hr⟩ => todo_spoilt t h v rest r hr, False.elim⟩).1 ((C76_VTodo s v).1 hv))

/-- **C99**: an RFC 5545 text with a line that is not read, here or in a part, is not read as a journal entry. -/
theorem C99_VJournal_refused (t : Tree) (h : t.Spoilt) (s rest : Str) (hs : Abnf.Unfolds s (t.str ++ rest)) (hi : ¬ c!"\r\n\t" <:+: s) (v : VJournal) :
    VJournal.ofStr s ≠ .ok v :=
  fun hv => ((by_tree hs hi (R := False) ⟨fun ⟨r, hr⟩ => journal_spoilt t h v rest r hr, False.elim⟩).1 ((C76_VJournal s v).1 hv))

/-- **C99**: an RFC 5545 text with a line that is not read, here or in a part, is not read as a free/busy time. -/
theorem C99_VFreebusy_refused (t : Tree) (h : t.Spoilt) (s rest : Str) (hs : Abnf.Unfolds s (t.str ++ rest)) (hi : ¬ c!"\r\n\t" <:+: s) (v : VFreebusy) :
    VFreebusy.ofStr s ≠ .ok v :=
  fun hv => ((by_tree hs hi (R := False) ⟨fun ⟨r, hr⟩ => freebusy_spoilt t h v rest r hr, False.elim⟩).1 ((C76_VFreebusy s v).1 hv))

/-- **C99**: an RFC 5545 text with a line that is not read, here or in a part, is not read as standard time. -/
theorem C99_Standard_refused (t : Tree) (h : t.Spoilt) (s rest : Str) (hs : Abnf.Unfolds s (t.str ++ rest)) (hi : ¬ c!"\r\n\t" <:+: s) (v : Standard) :
    Standard.ofStr s ≠ .ok v :=
  fun hv => ((by_tree hs hi (R := False) ⟨fun ⟨r, hr⟩ => standard_spoilt t h v rest r hr, False.elim⟩).1 ((C76_Standard s v).1 hv))

/-- **C99**: an RFC 5545 text with a line that is not read, here or in a part, is not read as daylight saving time. -/
theorem C99_Daylight_refused (t : Tree) (h : t.Spoilt) (s rest : Str) (hs : Abnf.Unfolds s (t.str ++ rest)) (hi : ¬ c!"\r\n\t" <:+: s) (v : Daylight) :
    Daylight.ofStr s ≠ .ok v :=
  fun hv => ((by_tree hs hi (R := False) ⟨fun ⟨r, hr⟩ => daylight_spoilt t h v rest r hr, False.elim⟩).1 ((C76_Daylight s v).1 hv))

/-- **C99**: an RFC 5545 text with a line that is not read, here or in a part, is not read as an event. -/
theorem C99_VEvent_refused (t : Tree) (h : t.Spoilt) (s rest : Str) (hs : Abnf.Unfolds s (t.str ++ rest)) (hi : ¬ c!"\r\n\t" <:+: s) (v : VEvent) :
    VEvent.ofStr s ≠ .ok v :=
  fun hv => ((by_tree hs hi (R := False) ⟨fun ⟨r, hr⟩ => event_spoilt t h v rest r hr, False.elim⟩).1 ((C76_VEvent s v).1 hv))

/-- **C99**: an RFC 5545 text with a line that is not read, here or in a part, is not read as a time zone. -/
theorem C99_VTimezone_refused (t : Tree) (h : t.Spoilt) (s rest : Str) (hs : Abnf.Unfolds s (t.str ++ rest)) (hi : ¬ c!"\r\n\t" <:+: s) (v : VTimezone) :
    VTimezone.ofStr s ≠ .ok v :=
  fun hv => ((by_tree hs hi (R := False) ⟨fun ⟨r, hr⟩ => timezone_spoilt t h v rest r hr, False.elim⟩).1 ((C76_VTimezone s v).1 hv))

/-- **C99**: an RFC 5545 text with a line that is not read, anywhere, is not read as a calendar. -/
theorem C99_VCalendar_refused (t : Tree) (h : t.Spoilt) (s rest : Str) (hs : Abnf.Unfolds s (t.str ++ rest)) (hi : ¬ c!"\r\n\t" <:+: s) (v : VCalendar) :
    VCalendar.ofStr s ≠ .ok v := by
  intro hv
  obtain ⟨u', cs, r, hu', ht⟩ := (C76_VCalendar s v).1 hv
  have hu := unfolds_same hs hi
  rw [unfolds_iff] at hu hu'
  rw [← hu', hu] at ht
  exact calendar_spoilt t h v cs rest r ht

/-- **C99**: alarms in a to-do (RFC 5545 3.6.2 allows them) are not read. -/
theorem C99_VTodo_alarm (lines : List Line) (a : Tree) (parts : List Tree) (h : Tree.Good (.mk c!"VTODO" lines (a :: parts))) (s rest : Str)
    (hs : Abnf.Unfolds s ((Tree.mk c!"VTODO" lines (a :: parts)).str ++ rest)) (hi : ¬ c!"\r\n\t" <:+: s) (v : VTodo) : VTodo.ofStr s ≠ .ok v := by
  rw [Ne, C99_VTodo _ h s rest hs hi]
  rintro ⟨_, _, e, _⟩
  injection e with _ _ e
  cases e

theorem pairs_mem {α : Type u} {β : Type v} {R : α → β → Prop} {as : List α} {bs : List β} (h : Pairs R as bs) : ∀ a ∈ as, ∃ b, R a b := by
  induction h with
  | nil => intro a ha; cases ha
  | cons h1 _ ih =>
    intro a ha
    rcases List.mem_cons.1 ha with rfl | ha
    · exact ⟨_, h1⟩
    · exact ih a ha

/-- **C99**: a calendar with a component of another kind (RFC 5545 3.6 lets one ignore it) is not read. -/
theorem C99_VCalendar_unknown (lines : List Line) (parts : List Tree) (h : Tree.Good (.mk c!"VCALENDAR" lines parts)) (n : Str) (ls : List Line) (ts : List Tree)
    (hp : .mk n ls ts ∈ parts) (hn : n ∉ [c!"VALARM", c!"VEVENT", c!"VFREEBUSY", c!"VJOURNAL", c!"VTIMEZONE", c!"VTODO"]) (s rest : Str)
    (hs : Abnf.Unfolds s ((Tree.mk c!"VCALENDAR" lines parts).str ++ rest)) (hi : ¬ c!"\r\n\t" <:+: s) (v : VCalendar) : VCalendar.ofStr s ≠ .ok v := by
  rw [Ne, C99_VCalendar _ h s rest hs hi]
  rintro ⟨_, _, parts', cs, e, _, _, hc, _⟩
  injection e with _ _ e
  subst e
  obtain ⟨c, hc⟩ := pairs_mem hc _ hp
  apply hn
  cases c with
  | alarm c => obtain ⟨_, _, e, _⟩ := hc; injection e with e; simp [e]
  | event c => obtain ⟨_, _, _, e, _⟩ := hc; injection e with e; simp [e]
  | freebusy c => obtain ⟨_, _, e, _⟩ := hc; injection e with e; simp [e]
  | journal c => obtain ⟨_, _, e, _⟩ := hc; injection e with e; simp [e]
  | timezone c => obtain ⟨_, _, _, _, e, _⟩ := hc; injection e with e; simp [e]
  | todo c => obtain ⟨_, _, e, _⟩ := hc; injection e with e; simp [e]

end

/-! ## Cases -/

section
attribute [local instance] utc

private instance (c : Char) : Decidable (Control c) := by unfold Control; infer_instance
private instance (c : Char) : Decidable (TokenChar c) := by unfold TokenChar; infer_instance
private instance (c : Char) : Decidable (QSafeChar c) := by unfold QSafeChar; infer_instance
private instance (c : Char) : Decidable (SafeChar c) := by unfold SafeChar; infer_instance
private instance (s : Str) : Decidable (IsToken s) := by unfold IsToken; infer_instance
private instance (v : ParamValue) : Decidable v.Ok := by cases v <;> unfold ParamValue.Ok <;> infer_instance
private instance (p : Param) : Decidable p.Ok := by unfold Param.Ok; infer_instance
private instance (l : Line) : Decidable l.Ok := by unfold Line.Ok; infer_instance
private instance (l : Line) : Decidable l.Frame := by
  unfold Line.Frame
  exact match h : l.params with
  | [] => if h' : l.name = c!"BEGIN" ∨ l.name = c!"END" then isTrue ⟨rfl, h'⟩ else isFalse fun x => h' x.2
  | _ :: _ => isFalse fun x => by cases x.1

/-- `ATTENDEE;ROLE=CHAIR;CN="Ada: L;":mailto:a@example.org`. -/
private def ada : Line := ⟨c!"ATTENDEE", [⟨c!"ROLE", .text c!"CHAIR", []⟩, ⟨c!"CN", .quoted c!"Ada: L;", []⟩], c!"mailto:a@example.org"⟩

private theorem ada_ok : ada.Ok := by decide +kernel
private theorem ada_frame : ¬ ada.Frame := by decide +kernel
private theorem ada_understood : ∀ p ∈ ada.params, p.Understood := by
  intro p hp
  simp only [ada, List.mem_cons, List.not_mem_nil, or_false] at hp
  rcases hp with rfl | rfl
  · intro s hs; cases hs
  · trivial

-- a line that is read: the hypotheses of `C99_line_read` and `C99_line`
example : ∃ c, contentLine (ada.str ++ c!"X:") = .ok c!"X:" c ∧ c.params.get? c!"CN" = some c!"Ada: L;" ∧ c.value = c!"mailto:a@example.org" := by
  obtain ⟨c, h1, _, h2, _, h3⟩ := C99_line_read ada ada_ok ada_frame ada_understood c!"X:"
  exact ⟨c, h1, (h3 _).trans (by decide +kernel), h2⟩
example : ada.str = c!"ATTENDEE;ROLE=CHAIR;CN=\"Ada: L;\":mailto:a@example.org\r\n" := by decide +kernel
example : (ada.params.map Param.name).Nodup := by decide +kernel

/-- `ATTENDEE;MEMBER="mailto:a@example.org","mailto:b@example.org":mailto:c@example.org`, as in RFC 5545 3.2.11. -/
private def members : Line :=
  ⟨c!"ATTENDEE", [⟨c!"MEMBER", .quoted c!"mailto:a@example.org", [.quoted c!"mailto:b@example.org"]⟩], c!"mailto:c@example.org"⟩

private theorem members_bad : BadLine members :=
  ⟨by decide +kernel, by decide +kernel, [], _, [], _, rfl, by simp, rfl, by simp⟩

example : contentLine c!"ATTENDEE;MEMBER=\"mailto:a@example.org\",\"mailto:b@example.org\":mailto:c@example.org\r\n" = .err :=
  C99_line_refused members members_bad []

/-- `X-A;X-P=1,"b:c":v`. -/
private def cut : Line := ⟨c!"X-A", [⟨c!"X-P", .text c!"1", [.quoted c!"b:c"]⟩], c!"v"⟩

example : ∃ c, contentLine (cut.str ++ []) = .ok [] c ∧ c.value = c!"c\":v" ∧ c.params.get? c!"X-P" = some c!"1,\"b" := by
  obtain ⟨c, h1, _, h2, h3⟩ := C99_line_cut cut (by decide +kernel) (by decide +kernel) [] _ [] rfl (by simp) c!"1" rfl c!"1,\"b" c!"c\"" (by decide +kernel) (by decide +kernel) []
  exact ⟨c, h1, h2, h3⟩

-- unfolding: a space and a tab
example : ¬ c!"\r\n\t" <:+: c!"A:b\r\n c\t\r\n" := by decide
example : c!"\r\n\t" <:+: c!"A:b\r\n\tc" := by decide

/-- A to-do: its stamp and its identifier. -/
private def todoLines : List Line := [⟨c!"DTSTAMP", [], c!"19970901T130000Z"⟩, ⟨c!"UID", [], c!"u"⟩]

private theorem todoLines_good : ∀ l ∈ todoLines, GoodLine l := by
  have h : ∀ l ∈ todoLines, l.Ok ∧ ¬ l.Frame ∧ l.params = [] := by
    intro l hl
    simp only [todoLines, List.mem_cons, List.not_mem_nil, or_false] at hl
    rcases hl with rfl | rfl
    · exact ⟨by decide +kernel, by decide +kernel, rfl⟩
    · exact ⟨by decide +kernel, by decide +kernel, rfl⟩
  intro l hl
  obtain ⟨h1, h2, h3⟩ := h l hl
  exact ⟨h1, h2, by rw [h3]; simp⟩

private theorem todo_good : Tree.Good (.mk c!"VTODO" todoLines []) := .mk (by decide +kernel) todoLines_good (by simp)

/-- The text with a fold. -/
private def todoStr : Str := c!"BEGIN:VTODO\r\nDTSTAMP:19970901\r\n T130000Z\r\nUID:u\r\nEND:VTODO\r\n"

private theorem unfolds_of {s : Str} {u : Str} (h : unfold s = u) (hi : ¬ c!"\r\n\t" <:+: s) : Abnf.Unfolds s u := by
  obtain ⟨u', h1, h2⟩ := (C99_unfold s).2 hi
  rw [unfolds_iff, h] at h1
  exact h1 ▸ h2

-- a to-do that is read, and so the text says what is read
example : ∃ v, VTodo.ofStr todoStr = .ok v ∧ v.uid.text = c!"u" ∧ IsLeaf c!"VTODO" Full.VTodoFrom (.mk c!"VTODO" todoLines []) v := by
  have hi : ¬ c!"\r\n\t" <:+: todoStr := by decide
  have hs : Abnf.Unfolds todoStr ((Tree.mk c!"VTODO" todoLines []).str ++ []) := unfolds_of (by decide +kernel) hi
  have hr : ∃ v, VTodo.ofStr todoStr = .ok v ∧ v.uid.text = c!"u" := ⟨_, rfl, rfl⟩
  obtain ⟨v, h1, h2⟩ := hr
  exact ⟨v, h1, h2, (C99_VTodo _ todo_good todoStr [] hs hi v).1 h1⟩

-- a to-do with an alarm
example (v : VTodo) : VTodo.ofStr c!"BEGIN:VTODO\r\nDTSTAMP:19970901T130000Z\r\nUID:u\r\nBEGIN:VALARM\r\nEND:VALARM\r\nEND:VTODO\r\n" ≠ .ok v :=
  C99_VTodo_alarm todoLines (.mk c!"VALARM" [] []) [] (.mk (by decide +kernel) todoLines_good (by
    intro t ht; simp at ht; subst ht; exact .mk (by decide +kernel) (by simp) (by simp))) _ []
    (unfolds_of (by decide +kernel) (by decide)) (by decide) v

/-- A calendar with a component `VX`. -/
private def unknownCal : Tree := .mk c!"VCALENDAR" [⟨c!"PRODID", [], c!"p"⟩, ⟨c!"VERSION", [], c!"2.0"⟩] [.mk c!"VTODO" todoLines [], .mk c!"VX" [] []]

private theorem plain_good {k x : Str} (h : (⟨k, [], x⟩ : Line).Ok) (hf : ¬ (⟨k, [], x⟩ : Line).Frame) : GoodLine ⟨k, [], x⟩ := ⟨h, hf, by simp⟩

private theorem cal_lines : ∀ l ∈ [(⟨c!"PRODID", [], c!"p"⟩ : Line), ⟨c!"VERSION", [], c!"2.0"⟩], GoodLine l := by
  intro l hl
  simp only [List.mem_cons, List.not_mem_nil, or_false] at hl
  rcases hl with rfl | rfl <;> exact plain_good (by decide +kernel) (by decide +kernel)

private theorem unknown_good : unknownCal.Good := by
  refine .mk (by decide +kernel) cal_lines ?_
  intro t ht
  simp only [List.mem_cons, List.not_mem_nil, or_false] at ht
  rcases ht with rfl | rfl
  · exact todo_good
  · exact .mk (by decide +kernel) (by simp) (by simp)

set_option maxRecDepth 8000 in
example (v : VCalendar) : VCalendar.ofStr unknownCal.str ≠ .ok v :=
  C99_VCalendar_unknown _ _ unknown_good c!"VX" [] [] (by simp) (by decide +kernel) _ []
    (unfolds_of (by decide +kernel) (by decide +kernel)) (by decide +kernel) v

/-- A calendar with an event with a list of members. -/
private def spoiltCal : Tree := .mk c!"VCALENDAR" [⟨c!"PRODID", [], c!"p"⟩, ⟨c!"VERSION", [], c!"2.0"⟩]
  [.mk c!"VTODO" todoLines [], .mk c!"VEVENT" (todoLines ++ members :: []) []]

private theorem spoiltCal_spoilt : spoiltCal.Spoilt :=
  .part (pre := [.mk c!"VTODO" todoLines []]) (post := []) (by decide +kernel) cal_lines (by intro t ht; simp at ht; subst ht; exact todo_good)
    (.line (by decide +kernel) todoLines_good members_bad)

set_option maxRecDepth 8000 in
example (v : VCalendar) : VCalendar.ofStr spoiltCal.str ≠ .ok v :=
  C99_VCalendar_refused _ spoiltCal_spoilt _ [] (unfolds_of (by decide +kernel) (by decide +kernel)) (by decide +kernel) v

/-- A calendar that is read. -/
private def plainCal : Tree := .mk c!"VCALENDAR" [⟨c!"PRODID", [], c!"p"⟩, ⟨c!"VERSION", [], c!"2.0"⟩] [.mk c!"VTODO" todoLines []]

set_option maxRecDepth 8000 in
example : ∃ v, VCalendar.ofStr plainCal.str = .ok v ∧ v.todo.length = 1 ∧ IsCalendar plainCal v := by
  have hr : ∃ v, VCalendar.ofStr plainCal.str = .ok v ∧ v.todo.length = 1 := ⟨_, rfl, rfl⟩
  obtain ⟨v, h1, h2⟩ := hr
  refine ⟨v, h1, h2, (C99_VCalendar plainCal (.mk (by decide +kernel) cal_lines ?_) _ [] (unfolds_of (by decide +kernel) (by decide +kernel)) (by decide +kernel) v).1 h1⟩
  intro t ht; simp at ht; subst ht; exact todo_good

end

end Ikal
