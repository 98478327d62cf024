import Verif.Lemmas.Fold

/-!
# C01, C02, C03: writing and folding property lines

`field name v` is what every component writes for the property `name` with value `v`;
`Ser.attr v` is the text of its parameters and `Ser.ical v` the text of its value.
-/

namespace Ikal

open Spec

/-- How `field` relates to the specification of a property line. -/
theorem field_eq {α : Type} [Ser α] {name : Str} {v : α} {s : Str}
    (hc : Ser.isComponent α = false) (hs : Ser.ical v = .ok s) (hne : s ≠ []) :
    field name v = fold (propertyLine name (Ser.attr v) s) := by
  cases s with
  | nil => contradiction
  | cons a s => simp [field, hs, hc, propertyLine]; cases Ser.attr v <;> simp

theorem propertyLine_ne_nil (name : Str) (ps : Option Str) (v : Str) : propertyLine name ps v ≠ [] := by
  unfold propertyLine; split <;> simp

/-- The value of a result, for examples. -/
def Res.getD {α : Type} (d : α) : Res α → α
  | .ok a => a
  | _ => d

theorem fold_ok {s out : Str} (h : fold s = .ok out) :
    (byteLen s ≤ 75 ∧ out = s) ∨ (75 < byteLen s ∧ ∃ cs, Chunks 75 s cs ∧ out = join crlfsp cs) := by
  unfold fold at h
  split at h
  · right
    refine ⟨by omega, ?_⟩
    unfold split at h
    cases hg : splitGo 75 s.length s with
    | ok cs => rw [hg] at h; simp at h; exact ⟨cs, splitGo_ok (by omega) (Nat.le_refl _) hg, h.symm⟩
    | err e => rw [hg] at h; simp at h
    | panic => rw [hg] at h; simp at h
  · left; simp at h; exact ⟨by omega, h.symm⟩

theorem not_fold_of_no_lf {s : Str} (h : '\n' ∉ s) : ¬ HasFold (s ++ c!"\r\n") := by
  rintro ⟨a, b, e⟩
  rcases List.eq_nil_or_concat b with rfl | ⟨b, x, rfl⟩
  · have := congrArg List.getLast? e; simp at this
  · rcases List.eq_nil_or_concat b with rfl | ⟨b, y, rfl⟩
    · have h1 : a ++ c!"\r\n " ++ [x] = (a ++ c!"\r\n") ++ [' ', x] := by simp
      have h2 : s ++ c!"\r\n" = s ++ ['\r', '\n'] := rfl
      simp only [List.nil_append, List.concat_eq_append] at e
      rw [h1, h2] at e
      have := (List.append_inj' e rfl).2
      simp at this
    · simp only [List.concat_eq_append] at e
      have h1 : a ++ c!"\r\n " ++ (b ++ [y] ++ [x]) = (a ++ c!"\r\n " ++ b) ++ [y, x] := by simp
      rw [h1] at e
      have := (List.append_inj' e rfl).1
      exact h (by rw [← this]; simp)

theorem propertyLine_eq (name : Str) (ps : Option Str) (v : Str) :
    ∃ u, propertyLine name ps v = u ++ c!"\r\n" ∧
      (∀ x ∈ u, x ∈ name ∨ (∃ p, ps = some p ∧ x ∈ p) ∨ x ∈ v ∨ x = ';' ∨ x = ':') := by
  cases ps with
  | none => exact ⟨name ++ c!":" ++ v, by simp [propertyLine], by intro x hx; simp at hx ⊢; grind⟩
  | some p => exact ⟨name ++ c!";" ++ p ++ c!":" ++ v, by simp [propertyLine], by intro x hx; simp at hx ⊢; grind⟩

/-- **C01.** Unfolding what the serialiser writes for a property gives back its unfolded line,
for every property of which the unfolded line does not itself contain CR LF SPACE. -/
theorem C01_unfold_folded {α : Type} [Ser α] (hc : Ser.isComponent α = false)
    (name : Str) (v : α) (s out : Str)
    (hs : Ser.ical v = .ok s) (hne : s ≠ [])
    (hf : ¬ HasFold (propertyLine name (Ser.attr v) s))
    (h : field name v = .ok out) :
    unfold out = propertyLine name (Ser.attr v) s := by
  rw [field_eq hc hs hne] at h
  rcases fold_ok h with ⟨_, rfl⟩ | ⟨_, cs, hcs, rfl⟩
  · exact unfold_eq_self hf
  · exact hcs.unfold_join hf

/-- **C01**, with the hypothesis in a form callers can check: no line feed in the name, in the
parameters or in the written value. -/
theorem C01_unfold_folded_no_lf {α : Type} [Ser α] (hc : Ser.isComponent α = false)
    (name : Str) (v : α) (s out : Str)
    (hs : Ser.ical v = .ok s) (hne : s ≠ [])
    (hn : '\n' ∉ name) (hp : ∀ p, Ser.attr v = some p → '\n' ∉ p) (hv : '\n' ∉ s)
    (h : field name v = .ok out) :
    unfold out = propertyLine name (Ser.attr v) s := by
  refine C01_unfold_folded hc name v s out hs hne ?_ h
  obtain ⟨u, hu, hu'⟩ := propertyLine_eq name (Ser.attr v) s
  rw [hu]
  refine not_fold_of_no_lf fun hx => ?_
  rcases hu' _ hx with h | ⟨p, h, h'⟩ | h | h | h
  · exact hn h
  · exact hp p h h'
  · exact hv h
  · simp at h
  · simp at h

/-- C01, hypotheses: a folded line (3 physical lines) exists. -/
example : ∃ out, field c!"X" (List.replicate 200 'a' : Str) = .ok out ∧ ¬ out = propertyLine c!"X" none (List.replicate 200 'a') ∧
    unfold out = propertyLine c!"X" none (List.replicate 200 'a') := by
  refine ⟨(field c!"X" (List.replicate 200 'a' : Str)).getD [], ?_, ?_, ?_⟩ <;> decide +kernel

/-- C01: the proviso is needed. A value holding CR LF SPACE (a content line built by hand is the
only way to get one, text is escaped) loses it. -/
theorem C01_proviso_needed :
    field c!"x" (TimeDelta.mk 0) = .ok c!"x:P0D\r\n" ∧ HasFold (propertyLine c!"x\r\n y" none c!"P0D") ∧
    (∃ out, field c!"x\r\n y" (TimeDelta.mk 0) = .ok out ∧ unfold out ≠ propertyLine c!"x\r\n y" none c!"P0D") := by
  refine ⟨by decide +kernel, ⟨c!"x", c!"y:P0D\r\n", rfl⟩, _, rfl, by decide +kernel⟩

/-- **C02.** Every physical line written for a property has at most 76 octets, and the first at
most 75. -/
theorem C02_physical_lines_bounded {α : Type} [Ser α] (hc : Ser.isComponent α = false)
    (name : Str) (v : α) (out : Str) (h : field name v = .ok out) :
    (∀ l ∈ physicalLines out, byteLen l ≤ 76) ∧
    (∀ l, (physicalLines out).head? = some l → byteLen l ≤ 75) := by
  have key : out = [] ∨ ∃ line, line ≠ [] ∧ fold line = .ok out := by
    cases hs : Ser.ical v with
    | ok s =>
      cases s with
      | nil => left; simpa [field, hs, hc, fold] using h.symm
      | cons a s => right; rw [field_eq hc hs (by simp)] at h; exact ⟨_, propertyLine_ne_nil _ _ _, h⟩
    | err e => simp [field, hs] at h
    | panic => simp [field, hs] at h
  rcases key with rfl | ⟨line, hl, h⟩
  · simp [physicalLines]
  rcases fold_ok h with ⟨hb, rfl⟩ | ⟨_, cs, hcs, rfl⟩
  · exact ⟨fun l hl => by have := physicalLines_mem_le hl; omega,
      fun l hl => by have := physicalLines_mem_le (List.mem_of_mem_head? hl); omega⟩
  · refine ⟨fun l hl => by have := hcs.physical_le [] l (by simpa using hl); simpa using this, ?_⟩
    intro l hl'
    cases hcs with
    | nil => simp [physicalLines] at hl'; subst hl'; simp
    | last _ hb => have := physicalLines_mem_le (List.mem_of_mem_head? (by simpa using hl')); omega
    | @cons a b cs ha hb hc' =>
      rw [join_cons _ _ _ (hc'.ne_nil hb)] at hl'
      simp only [crlfsp, List.append_assoc, List.cons_append, List.nil_append] at hl'
      rw [physicalLines_crlf_append] at hl'
      cases hp : physicalLines a with
      | nil => exact absurd hp (physicalLines_ne_nil _)
      | cons x xs =>
        rw [hp] at hl'; simp at hl'; subst hl'
        have := physicalLines_mem_le (s := a) (l := x) (by simp [hp]); omega

theorem physicalLines_no_lf {s : Str} (h : '\n' ∉ s) : physicalLines s = [s] := by
  fun_induction physicalLines s with
  | case1 => rfl
  | case2 r ih => simp at h
  | case3 c r hr hn ih => exact absurd hn (physicalLines_ne_nil _)
  | case4 c r hr l ls hl ih => simp at h; have := ih h.2; simp_all

/-- A line of the specification, without line feeds but the last. -/
theorem lf_only_last {u a b : Str} (hu : '\n' ∉ u) (e : u ++ c!"\r\n" = a ++ b) (hb : b ≠ []) : '\n' ∉ a := by
  rcases List.eq_nil_or_concat b with rfl | ⟨b, x, rfl⟩
  · contradiction
  · have e' : (u ++ ['\r']) ++ ['\n'] = (a ++ b) ++ [x] := by simpa using e
    have := (List.append_inj' e' rfl).1
    intro h
    have : '\n' ∈ u ++ ['\r'] := by rw [this]; simp [h]
    simp at this; exact hu this

/-- **C02, the RFC 5545 limit of 75 octets is exceeded.** Every property line of at least 151
octets (CR LF included), without embedded line feeds, is written with a physical line of 76
octets. -/
theorem C02_limit_exceeded {α : Type} [Ser α] (hc : Ser.isComponent α = false)
    (name : Str) (v : α) (s out : Str) (hs : Ser.ical v = .ok s) (hne : s ≠ [])
    (hn : '\n' ∉ name) (hp : ∀ p, Ser.attr v = some p → '\n' ∉ p) (hv : '\n' ∉ s)
    (hlen : 151 ≤ byteLen (propertyLine name (Ser.attr v) s))
    (h : field name v = .ok out) :
    ∃ l ∈ physicalLines out, byteLen l = 76 := by
  rw [field_eq hc hs hne] at h
  obtain ⟨u, hu, hu'⟩ := propertyLine_eq name (Ser.attr v) s
  have hlf : '\n' ∉ u := fun hx => by
    rcases hu' _ hx with h | ⟨p, h, h'⟩ | h | h | h
    · exact hn h
    · exact hp p h h'
    · exact hv h
    · simp at h
    · simp at h
  rw [hu] at h hlen
  rcases fold_ok h with ⟨hb, rfl⟩ | ⟨_, cs, hcs, rfl⟩
  · omega
  · generalize hl : u ++ c!"\r\n" = line at *
    cases hcs with
    | nil => simp at hlen
    | last _ hb => omega
    | @cons a b cs ha hb hc' =>
      have hlb : byteLen b ≥ 76 := by simp at hlen; omega
      cases hc' with
      | nil => contradiction
      | last _ hb' => omega
      | @cons a2 b2 cs2 ha2 hb2 hc2 =>
        refine ⟨' ' :: a2, ?_, by simp [ha2]; decide⟩
        have hlf2 : '\n' ∉ a ++ a2 := lf_only_last hlf (by rw [hl]; simp) hb2
        rw [join_cons _ _ _ (by simp), join_cons _ _ _ (hc2.ne_nil hb2)]
        simp only [crlfsp, List.append_assoc, List.cons_append, List.nil_append]
        rw [physicalLines_crlf_append, ← List.cons_append, physicalLines_crlf_append,
          physicalLines_no_lf (s := ' ' :: a2) (by simp at hlf2; simp [hlf2])]
        simp

/-- C02, hypotheses of `C02_limit_exceeded`: a description of 200 letters. -/
example : ∃ out, field c!"X" (List.replicate 200 'a' : Str) = .ok out ∧
    151 ≤ byteLen (propertyLine c!"X" none (List.replicate 200 'a')) ∧
    (physicalLines out).map byteLen = [75, 76, 53, 0] := by
  refine ⟨(field c!"X" (List.replicate 200 'a' : Str)).getD [], ?_, ?_, ?_⟩ <;> decide +kernel

theorem Chunks.crlf_split {s : Str} {cs : List Str} (h : Chunks 75 s cs) :
    ∀ k u, s = u ++ c!"\r\n" → byteLen s = 75 * (k + 1) + 1 → c!"\r\r\n \n" <:+ join crlfsp cs := by
  induction h with
  | nil => intro k u hu; simp at hu
  | last _ hb => intro k u hu hl; omega
  | @cons a b cs ha hb hc ih =>
    intro k u hu hl
    rw [join_cons _ _ _ (hc.ne_nil hb)]
    cases k with
    | zero =>
      have hb1 : byteLen b = 1 := by simp at hl; omega
      rcases List.eq_nil_or_concat b with rfl | ⟨b', x, rfl⟩
      · contradiction
      simp only [List.concat_eq_append] at *
      have e' : (a ++ b') ++ [x] = (u ++ ['\r']) ++ ['\n'] := by simpa using hu
      have h1 := List.append_inj' e' rfl
      have hx : x = '\n' := by simpa using h1.2
      subst hx
      have hb' : b' = [] := by
        have : byteLen b' = 0 := by simp at hb1; have := ('\n').utf8Size_pos; omega
        exact byteLen_eq_zero.1 this
      subst hb'
      have ha' : a = u ++ ['\r'] := by simpa using h1.1
      subst ha'
      have hcs : cs = [['\n']] := by
        generalize hs : ([] : Str) ++ ['\n'] = s at hc hb1
        cases hc with
        | nil => simp at hs
        | last _ _ => simp [← hs]
        | @cons a2 b2 cs2 ha2 hb2 hc2 => have := byteLen_pos hb2; simp at hb1; omega
      subst hcs
      exact ⟨u, by simp [crlfsp]⟩
    | succ k =>
      have hlb : byteLen b = 75 * (k + 1) + 1 := by simp at hl; omega
      have hsuf : c!"\r\n" <:+ b := by
        have h1 : c!"\r\n" <:+ a ++ b := ⟨u, hu.symm⟩
        have h2 : b <:+ a ++ b := List.suffix_append _ _
        have hlen : (c!"\r\n").length ≤ b.length := by
          rcases Nat.lt_or_ge b.length 2 with h | h
          · have : byteLen b ≤ 4 := by
              rcases b with _ | ⟨x, _ | ⟨y, b⟩⟩
              · simp at hb
              · simp; have := x.utf8Size_le_four; omega
              · simp at h; omega
            omega
          · simpa using h
        exact List.suffix_of_suffix_length_le h1 h2 hlen
      obtain ⟨u', hu'⟩ := hsuf
      have := ih k u' hu'.symm hlb
      exact List.IsSuffix.trans this (List.suffix_append _ _)

/-- **C02, the terminator itself can be folded.** A property line of `75 (k+1) + 1` octets (CR LF
included) is written with its terminating CR and LF separated by a fold: the last physical line
is a space and a lone line feed. -/
theorem C02_terminator_split {α : Type} [Ser α] (hc : Ser.isComponent α = false)
    (name : Str) (v : α) (s out : Str) (hs : Ser.ical v = .ok s) (hne : s ≠ []) (k : Nat)
    (hlen : byteLen (propertyLine name (Ser.attr v) s) = 75 * (k + 1) + 1)
    (h : field name v = .ok out) :
    c!"\r\r\n \n" <:+ out := by
  rw [field_eq hc hs hne] at h
  obtain ⟨u, hu, -⟩ := propertyLine_eq name (Ser.attr v) s
  rcases fold_ok h with ⟨hb, rfl⟩ | ⟨_, cs, hcs, rfl⟩
  · omega
  · exact hcs.crlf_split k u hu hlen

/-- C02, hypotheses of `C02_terminator_split`. -/
example : ∃ out, field c!"SUMMARY" (List.replicate 66 'a' : Str) = .ok out ∧
    byteLen (propertyLine c!"SUMMARY" none (List.replicate 66 'a')) = 75 * (0 + 1) + 1 := by
  refine ⟨(field c!"SUMMARY" (List.replicate 66 'a' : Str)).getD [], ?_, ?_⟩ <;> decide +kernel

/-- **C03.** Writing a property whose value serialises to `s` panics if and only if its line is
longer than 75 octets and some multiple of 75 octets strictly inside it is not a character
boundary. (An empty value writes nothing, see C44.) -/
theorem C03_panic_iff {α : Type} [Ser α] (hc : Ser.isComponent α = false)
    (name : Str) (v : α) (s : Str) (hs : Ser.ical v = .ok s) (hne : s ≠ []) :
    field name v = .panic ↔
      75 < byteLen (propertyLine name (Ser.attr v) s) ∧
      ∃ k, 75 * k < byteLen (propertyLine name (Ser.attr v) s) ∧
        ¬ CharBoundary (propertyLine name (Ser.attr v) s) (75 * k) := by
  rw [field_eq hc hs hne]
  generalize propertyLine name (Ser.attr v) s = line
  unfold fold split
  split
  · rename_i hlt
    rw [← splitGo_panic (by omega) (Nat.le_refl _)]
    cases hg : splitGo 75 line.length line <;> simp_all
  · rename_i hlt
    simp; omega

theorem charBoundary_ascii {s : Str} (h : ∀ c ∈ s, c.toNat < 128) {n : Nat} (hn : n ≤ byteLen s) :
    CharBoundary s n := by
  induction s generalizing n with
  | nil => exact ⟨[], by simp, by simp at hn; simp [hn]⟩
  | cons c s ih =>
    cases n with
    | zero => exact ⟨[], by simp, rfl⟩
    | succ n =>
      have h1 : c.utf8Size = 1 := utf8Size_ascii (h c (by simp))
      obtain ⟨p, hp, hl⟩ := ih (fun c hc => h c (by simp [hc])) (n := n) (by simp [h1] at hn; omega)
      exact ⟨c :: p, by simpa using hp, by simp [h1, hl]; omega⟩

/-- **C03**, pure ASCII never panics (and never fails): the property is always written. -/
theorem C03_ascii_writes {α : Type} [Ser α] (hc : Ser.isComponent α = false)
    (name : Str) (v : α) (s : Str) (hs : Ser.ical v = .ok s) (hne : s ≠ [])
    (ha : ∀ c ∈ propertyLine name (Ser.attr v) s, c.toNat < 128) :
    ∃ out, field name v = .ok out := by
  cases h : field name v with
  | ok out => exact ⟨out, rfl⟩
  | err e =>
    rw [field_eq hc hs hne] at h
    unfold fold split at h
    split at h
    · cases hg : splitGo 75 (propertyLine name (Ser.attr v) s).length (propertyLine name (Ser.attr v) s) with
      | err e => exact absurd hg splitGo_not_err
      | ok _ => simp [hg] at h
      | panic => simp [hg] at h
    · simp at h
  | panic =>
    obtain ⟨_, k, hk, hb⟩ := (C03_panic_iff hc name v s hs hne).1 h
    exact absurd (charBoundary_ascii ha (by omega)) hb

/-- C03, both sides are inhabited: 66 letters and an `é` straddling octet 75 panic; one letter
less and the same text is written. -/
example : field c!"SUMMARY" (List.replicate 66 'a' ++ c!"éé" : Str) = .panic ∧
    (∃ out, field c!"SUMMARY" (List.replicate 65 'a' ++ c!"éé" : Str) = .ok out) := by
  refine ⟨by decide +kernel, ⟨(field c!"SUMMARY" (List.replicate 65 'a' ++ c!"éé" : Str)).getD [], ?_⟩⟩
  decide +kernel

end Ikal
