import Verif.Debug
import Verif.Props.TraceMessage

/-!
# Lemmas: the text of the builders tells the calls
-/

set_option linter.unusedSectionVars false

namespace Ikal

/-- The characters of a text without quotes. -/
def wordChar (c : Char) : Bool := c.isAlphanum || c == '_' || c == '-' || c == '+' || c == ':' || c == '.'

/-- The characters of a name. -/
def nameChar (c : Char) : Bool := c.isAlphanum || c == '_'

/-- A text of these characters. -/
def RunOf (p : Char → Bool) (s : Str) : Prop := s ≠ [] ∧ ∀ c ∈ s, p c = true

/-- It does not begin with such a character. -/
def NoHead (p : Char → Bool) (r : Str) : Prop := ∀ c, r.head? = some c → p c = false

theorem run_inj {p : Char → Bool} : ∀ {s s' r r' : Str}, (∀ c ∈ s, p c = true) → (∀ c ∈ s', p c = true) → NoHead p r → NoHead p r' → s ++ r = s' ++ r' →
    s = s' ∧ r = r' := by
  intro s
  induction s with
  | nil =>
    intro s' r r' _ h' hr _ h
    cases s' with
    | nil => exact ⟨rfl, h⟩
    | cons c t =>
      have := hr c (by rw [show r = [] ++ r from rfl, h]; rfl)
      rw [h' c (by simp)] at this; simp at this
  | cons a s ih =>
    intro s' r r' hs h' hr hr' h
    cases s' with
    | nil =>
      have := hr' a (by rw [show r' = [] ++ r' from rfl, ← h]; rfl)
      rw [hs a (by simp)] at this; simp at this
    | cons c t =>
      simp only [List.cons_append, List.cons.injEq] at h
      obtain ⟨h1, h2⟩ := ih (fun c hc => hs c (by simp [hc])) (fun c hc => h' c (by simp [hc])) hr hr' h.2
      exact ⟨by rw [h.1, h1], h2⟩

theorem dropWhile_run {p : Char → Bool} {s r : Str} (hs : ∀ c ∈ s, p c = true) (hr : NoHead p r) : (s ++ r).dropWhile p = r := by
  induction s with
  | nil =>
    cases r with
    | nil => rfl
    | cons c t => simp [List.dropWhile, hr c rfl]
  | cons a s ih => simp [List.dropWhile, hs a (by simp)]; exact ih fun c hc => hs c (by simp [hc])

theorem name_word {s : Str} (h : ∀ c ∈ s, nameChar c = true) : ∀ c ∈ s, wordChar c = true := by
  intro c hc
  have := h c hc
  simp only [nameChar, Bool.or_eq_true] at this
  simp only [wordChar, Bool.or_eq_true]
  exact .inl (.inl (.inl (.inl this)))

mutual
/-- The calls whose text tells them. -/
def Doc.Ok : Doc → Prop
  | .word s => RunOf wordChar s
  | .str _ => True
  | .struct n fs => RunOf nameChar n ∧ fs ≠ [] ∧ Doc.OkFields fs
  | .tuple n ds => RunOf nameChar n ∧ ds ≠ [] ∧ Doc.OkItems ds
  | .list ds => Doc.OkItems ds
  | .map fs => Doc.OkEntries fs
def Doc.OkFields : List (Str × Doc) → Prop
  | [] => True
  | f :: fs => RunOf nameChar f.1 ∧ f.2.Ok ∧ Doc.OkFields fs
def Doc.OkItems : List Doc → Prop
  | [] => True
  | d :: ds => d.Ok ∧ Doc.OkItems ds
def Doc.OkEntries : List (Str × Doc) → Prop
  | [] => True
  | f :: fs => f.2.Ok ∧ Doc.OkEntries fs
end

/-- What follows a text: nothing, or a separator or closing bracket. -/
def Stop (r : Str) : Prop :=
  r = [] ∨ (∃ t, r = ',' :: t) ∨ (∃ t, r = ')' :: t) ∨ (∃ t, r = ']' :: t) ∨ (∃ t, r = '}' :: t) ∨ ∃ t, r = ' ' :: '}' :: t

theorem Stop.noHead {r : Str} (h : Stop r) : NoHead wordChar r := by
  intro c hc
  rcases h with rfl | ⟨t, rfl⟩ | ⟨t, rfl⟩ | ⟨t, rfl⟩ | ⟨t, rfl⟩ | ⟨t, rfl⟩ <;> simp at hc <;> subst hc <;> rfl

/-- The builder. -/
def Doc.builder : Doc → Nat
  | .word _ => 0
  | .str _ => 1
  | .struct _ _ => 2
  | .tuple _ _ => 3
  | .list _ => 4
  | .map _ => 5

/-- The builder of a text, from what follows its first word. -/
def builderAfter : Str → Nat
  | ' ' :: '{' :: _ => 2
  | '(' :: _ => 3
  | _ => 0

/-- The builder of a text. -/
def builderOf : Str → Nat
  | '"' :: _ => 1
  | '[' :: _ => 4
  | '{' :: _ => 5
  | s => builderAfter (s.dropWhile wordChar)

theorem builderOf_run {s r : Str} (hs : RunOf wordChar s) (hr : NoHead wordChar r) : builderOf (s ++ r) = builderAfter r := by
  obtain ⟨h1, h2⟩ := hs
  have hd := dropWhile_run h2 hr
  cases s with
  | nil => exact absurd rfl h1
  | cons c s =>
    have hc := h2 c (by simp)
    have hq : c ≠ '"' := by rintro rfl; revert hc; decide
    have hb : c ≠ '[' := by rintro rfl; revert hc; decide
    have hm : c ≠ '{' := by rintro rfl; revert hc; decide
    rw [List.cons_append] at hd ⊢
    rw [builderOf]
    · rw [hd]
    · intro t h; injection h with h _; exact hq h
    · intro t h; injection h with h _; exact hb h
    · intro t h; injection h with h _; exact hm h

theorem stop_word {r : Str} (h : Stop r) : builderAfter r = 0 := by
  rcases h with rfl | ⟨t, rfl⟩ | ⟨t, rfl⟩ | ⟨t, rfl⟩ | ⟨t, rfl⟩ | ⟨t, rfl⟩ <;> rfl

section
variable [DebugChars]

theorem builderOf_compact {d : Doc} {r : Str} (hd : d.Ok) (hr : Stop r) : builderOf (d.compact ++ r) = d.builder := by
  cases d with
  | word s => rw [Doc.compact, builderOf_run hd hr.noHead, stop_word hr]; rfl
  | str s => rw [Doc.compact]; rfl
  | struct n fs =>
    obtain ⟨⟨hn, hn'⟩, hf, -⟩ := hd
    cases fs with
    | nil => exact absurd rfl hf
    | cons f fs =>
      simp only [Doc.compact, List.append_assoc]
      rw [builderOf_run ⟨hn, name_word hn'⟩ (by intro c hc; simp at hc; subst hc; rfl)]; rfl
  | tuple n ds =>
    obtain ⟨⟨hn, hn'⟩, hf, -⟩ := hd
    cases ds with
    | nil => exact absurd rfl hf
    | cons f fs =>
      simp only [Doc.compact, List.append_assoc]
      rw [builderOf_run ⟨hn, name_word hn'⟩ (by intro c hc; simp at hc; subst hc; rfl)]; rfl
  | list l => cases l <;> simp only [Doc.compact, List.append_assoc] <;> rfl
  | map l => cases l <;> simp only [Doc.compact, List.append_assoc] <;> rfl

/-- What follows the last item: not another one. -/
def Last (r : Str) : Prop := Stop r ∧ ∀ t, r ≠ ',' :: t

theorem stop_items {ds : List Doc} {r : Str} (h : Last r) : Stop (Doc.moreItems ds ++ r) := by
  cases ds with
  | nil => exact h.1
  | cons d ds => exact .inr (.inl ⟨_, by simp only [Doc.moreItems, List.append_assoc]; rfl⟩)

theorem stop_fields {fs : List (Str × Doc)} {r : Str} (h : Last r) : Stop (Doc.moreFields fs ++ r) := by
  cases fs with
  | nil => exact h.1
  | cons d ds => exact .inr (.inl ⟨_, by simp only [Doc.moreFields, List.append_assoc]; rfl⟩)

theorem stop_entries {fs : List (Str × Doc)} {r : Str} (h : Last r) : Stop (Doc.moreEntries fs ++ r) := by
  cases fs with
  | nil => exact h.1
  | cons d ds => exact .inr (.inl ⟨_, by simp only [Doc.moreEntries, List.append_assoc]; rfl⟩)

theorem last_paren (r : Str) : Last (c!")" ++ r) := ⟨.inr (.inr (.inl ⟨r, rfl⟩)), by intro t h; simp at h⟩
theorem last_bracket (r : Str) : Last (c!"]" ++ r) := ⟨.inr (.inr (.inr (.inl ⟨r, rfl⟩))), by intro t h; simp at h⟩
theorem last_brace (r : Str) : Last (c!"}" ++ r) := ⟨.inr (.inr (.inr (.inr (.inl ⟨r, rfl⟩)))), by intro t h; simp at h⟩
theorem last_struct (r : Str) : Last (c!" }" ++ r) := ⟨.inr (.inr (.inr (.inr (.inr ⟨r, rfl⟩)))), by intro t h; simp at h⟩

theorem noHead_colon (r : Str) : NoHead nameChar (c!": " ++ r) := by intro c hc; simp at hc; subst hc; rfl
theorem noHead_open (r : Str) : NoHead nameChar (c!" { " ++ r) := by intro c hc; simp at hc; subst hc; rfl
theorem noHead_paren (r : Str) : NoHead nameChar (c!"(" ++ r) := by intro c hc; simp at hc; subst hc; rfl

theorem run_noHead {s t r : Str} {c : Char} (hs : RunOf wordChar s) (hc : wordChar c = false) : s ++ r ≠ c :: t := by
  intro h
  cases s with
  | nil => exact hs.1 rfl
  | cons a s =>
    simp only [List.cons_append, List.cons.injEq] at h
    have := hs.2 a (by simp)
    rw [h.1, hc] at this; cases this

theorem compact_head {d : Doc} {t r : Str} (hd : d.Ok) : d.compact ++ r ≠ ']' :: t := by
  cases d with
  | word s => exact run_noHead hd rfl
  | str s => simp [Doc.compact, debugStr]
  | struct n fs =>
    cases fs with
    | nil => exact absurd rfl hd.2.1
    | cons f fs =>
      simp only [Doc.compact, List.append_assoc]
      exact run_noHead ⟨hd.1.1, name_word hd.1.2⟩ rfl
  | tuple n fs =>
    cases fs with
    | nil => exact absurd rfl hd.2.1
    | cons f fs =>
      simp only [Doc.compact, List.append_assoc]
      exact run_noHead ⟨hd.1.1, name_word hd.1.2⟩ rfl
  | list l => cases l <;> simp [Doc.compact]
  | map l => cases l <;> simp [Doc.compact]

set_option maxHeartbeats 1000000 in
mutual
theorem compact_inj : ∀ (d : Doc) {d' : Doc} {r r' : Str}, d.Ok → d'.Ok → Stop r → Stop r' → d.compact ++ r = d'.compact ++ r' → d = d' ∧ r = r'
  | .word s, d', r, r', hd, hd', hr, hr', h => by
    have hb := builderOf_compact hd hr
    rw [h, builderOf_compact hd' hr'] at hb
    cases d' <;> simp only [Doc.builder] at hb <;> try exact absurd hb (by decide)
    simp only [Doc.compact] at h
    obtain ⟨h1, h2⟩ := run_inj hd.2 hd'.2 hr.noHead hr'.noHead h
    exact ⟨by rw [h1], h2⟩
  | .str s, d', r, r', hd, hd', hr, hr', h => by
    have hb := builderOf_compact hd hr
    rw [h, builderOf_compact hd' hr'] at hb
    cases d' <;> simp only [Doc.builder] at hb <;> try exact absurd hb (by decide)
    simp only [Doc.compact] at h
    obtain ⟨h1, h2⟩ := debugStr_append_inj h
    exact ⟨by rw [h1], h2⟩
  | .struct n [], _, r, r', hd, hd', hr, hr', h => absurd rfl hd.2.1
  | .struct n ((k, d) :: fs), d', r, r', hd, hd', hr, hr', h => by
    have hb := builderOf_compact hd hr
    rw [h, builderOf_compact hd' hr'] at hb
    cases d' <;> simp only [Doc.builder] at hb <;> try exact absurd hb (by decide)
    rename_i n' fs'
    obtain ⟨hn, -, ho⟩ := hd
    obtain ⟨hn', hf', ho'⟩ := hd'
    cases fs' with
    | nil => exact absurd rfl hf'
    | cons f' fs' =>
      obtain ⟨k', d'⟩ := f'
      simp only [Doc.compact, List.append_assoc] at h
      obtain ⟨h1, h⟩ := run_inj hn.2 hn'.2 (noHead_open _) (noHead_open _) h
      have h := List.append_cancel_left h
      obtain ⟨(h2 : k = k'), h⟩ := run_inj ho.1.2 ho'.1.2 (noHead_colon _) (noHead_colon _) h
      have h := List.append_cancel_left h
      obtain ⟨h3, h⟩ := compact_inj d ho.2.1 ho'.2.1 (stop_fields (last_struct r)) (stop_fields (last_struct r')) h
      obtain ⟨h4, h⟩ := fields_inj fs ho.2.2 ho'.2.2 (last_struct r) (last_struct r') h
      exact ⟨by rw [h1, h2, h3, h4], List.append_cancel_left h⟩
  | .tuple n [], _, r, r', hd, hd', hr, hr', h => absurd rfl hd.2.1
  | .tuple n (d :: ds), d', r, r', hd, hd', hr, hr', h => by
    have hb := builderOf_compact hd hr
    rw [h, builderOf_compact hd' hr'] at hb
    cases d' <;> simp only [Doc.builder] at hb <;> try exact absurd hb (by decide)
    rename_i n' ds'
    obtain ⟨hn, -, ho⟩ := hd
    obtain ⟨hn', hf', ho'⟩ := hd'
    cases ds' with
    | nil => exact absurd rfl hf'
    | cons d' ds' =>
      simp only [Doc.compact, List.append_assoc] at h
      obtain ⟨h1, h⟩ := run_inj hn.2 hn'.2 (noHead_paren _) (noHead_paren _) h
      have h := List.append_cancel_left h
      obtain ⟨h3, h⟩ := compact_inj d ho.1 ho'.1 (stop_items (last_paren r)) (stop_items (last_paren r')) h
      obtain ⟨h4, h⟩ := items_inj ds ho.2 ho'.2 (last_paren r) (last_paren r') h
      exact ⟨by rw [h1, h3, h4], List.append_cancel_left h⟩
  | .list [], d', r, r', hd, hd', hr, hr', h => by
    have hb := builderOf_compact hd hr
    rw [h, builderOf_compact hd' hr'] at hb
    cases d' <;> simp only [Doc.builder] at hb <;> try exact absurd hb (by decide)
    rename_i ds'
    cases ds' with
    | nil => exact ⟨rfl, by simpa [Doc.compact] using h⟩
    | cons d' ds' =>
      simp only [Doc.compact, List.append_assoc] at h
      simp only [List.cons_append, List.nil_append, List.cons.injEq, true_and] at h
      exact absurd h.symm (compact_head hd'.1)
  | .list (d :: ds), d', r, r', hd, hd', hr, hr', h => by
    have hb := builderOf_compact hd hr
    rw [h, builderOf_compact hd' hr'] at hb
    cases d' <;> simp only [Doc.builder] at hb <;> try exact absurd hb (by decide)
    rename_i ds'
    cases ds' with
    | nil =>
      simp only [Doc.compact, List.append_assoc] at h
      simp only [List.cons_append, List.nil_append, List.cons.injEq, true_and] at h
      exact absurd h (compact_head hd.1)
    | cons d' ds' =>
      simp only [Doc.compact, List.append_assoc] at h
      have h := List.append_cancel_left h
      obtain ⟨h3, h⟩ := compact_inj d hd.1 hd'.1 (stop_items (last_bracket r)) (stop_items (last_bracket r')) h
      obtain ⟨h4, h⟩ := items_inj ds hd.2 hd'.2 (last_bracket r) (last_bracket r') h
      exact ⟨by rw [h3, h4], List.append_cancel_left h⟩
  | .map [], d', r, r', hd, hd', hr, hr', h => by
    have hb := builderOf_compact hd hr
    rw [h, builderOf_compact hd' hr'] at hb
    cases d' <;> simp only [Doc.builder] at hb <;> try exact absurd hb (by decide)
    rename_i fs'
    cases fs' with
    | nil => exact ⟨rfl, by simpa [Doc.compact] using h⟩
    | cons d' ds' => simp [Doc.compact, debugStr] at h
  | .map ((k, d) :: fs), d', r, r', hd, hd', hr, hr', h => by
    have hb := builderOf_compact hd hr
    rw [h, builderOf_compact hd' hr'] at hb
    cases d' <;> simp only [Doc.builder] at hb <;> try exact absurd hb (by decide)
    rename_i fs'
    cases fs' with
    | nil => simp [Doc.compact, debugStr] at h
    | cons f' fs' =>
      obtain ⟨k', d'⟩ := f'
      simp only [Doc.compact, List.append_assoc] at h
      have h := List.append_cancel_left h
      obtain ⟨(h2 : k = k'), h⟩ := debugStr_append_inj h
      have h := List.append_cancel_left h
      obtain ⟨h3, h⟩ := compact_inj d hd.1 hd'.1 (stop_entries (last_brace r)) (stop_entries (last_brace r')) h
      obtain ⟨h4, h⟩ := entries_doc_inj fs hd.2 hd'.2 (last_brace r) (last_brace r') h
      exact ⟨by rw [h2, h3, h4], List.append_cancel_left h⟩
theorem items_inj : ∀ (ds : List Doc) {ds' : List Doc} {r r' : Str}, Doc.OkItems ds → Doc.OkItems ds' → Last r → Last r' →
    Doc.moreItems ds ++ r = Doc.moreItems ds' ++ r' → ds = ds' ∧ r = r'
  | [], [], r, r', _, _, _, _, h => ⟨rfl, h⟩
  | [], d' :: ds', r, r', _, _, hr, _, h => by
    simp only [Doc.moreItems, List.append_assoc] at h; exact absurd h (hr.2 _)
  | d :: ds, [], r, r', _, _, _, hr', h => by
    simp only [Doc.moreItems, List.append_assoc] at h; exact absurd h.symm (hr'.2 _)
  | d :: ds, d' :: ds', r, r', hd, hd', hr, hr', h => by
    simp only [Doc.moreItems, List.append_assoc] at h
    have h := List.append_cancel_left h
    obtain ⟨h3, h⟩ := compact_inj d hd.1 hd'.1 (stop_items hr) (stop_items hr') h
    obtain ⟨h4, h⟩ := items_inj ds hd.2 hd'.2 hr hr' h
    exact ⟨by rw [h3, h4], h⟩
theorem fields_inj : ∀ (fs : List (Str × Doc)) {fs' : List (Str × Doc)} {r r' : Str}, Doc.OkFields fs → Doc.OkFields fs' → Last r → Last r' →
    Doc.moreFields fs ++ r = Doc.moreFields fs' ++ r' → fs = fs' ∧ r = r'
  | [], [], r, r', _, _, _, _, h => ⟨rfl, h⟩
  | [], d' :: ds', r, r', _, _, hr, _, h => by
    simp only [Doc.moreFields, List.append_assoc] at h; exact absurd h (hr.2 _)
  | d :: ds, [], r, r', _, _, _, hr', h => by
    simp only [Doc.moreFields, List.append_assoc] at h; exact absurd h.symm (hr'.2 _)
  | (k, d) :: fs, (k', d') :: fs', r, r', hd, hd', hr, hr', h => by
    simp only [Doc.moreFields, List.append_assoc] at h
    have h := List.append_cancel_left h
    obtain ⟨(h2 : k = k'), h⟩ := run_inj hd.1.2 hd'.1.2 (noHead_colon _) (noHead_colon _) h
    have h := List.append_cancel_left h
    obtain ⟨h3, h⟩ := compact_inj d hd.2.1 hd'.2.1 (stop_fields hr) (stop_fields hr') h
    obtain ⟨h4, h⟩ := fields_inj fs hd.2.2 hd'.2.2 hr hr' h
    exact ⟨by rw [h2, h3, h4], h⟩
theorem entries_doc_inj : ∀ (fs : List (Str × Doc)) {fs' : List (Str × Doc)} {r r' : Str}, Doc.OkEntries fs → Doc.OkEntries fs' → Last r → Last r' →
    Doc.moreEntries fs ++ r = Doc.moreEntries fs' ++ r' → fs = fs' ∧ r = r'
  | [], [], r, r', _, _, _, _, h => ⟨rfl, h⟩
  | [], d' :: ds', r, r', _, _, hr, _, h => by
    simp only [Doc.moreEntries, List.append_assoc] at h; exact absurd h (hr.2 _)
  | d :: ds, [], r, r', _, _, _, hr', h => by
    simp only [Doc.moreEntries, List.append_assoc] at h; exact absurd h.symm (hr'.2 _)
  | (k, d) :: fs, (k', d') :: fs', r, r', hd, hd', hr, hr', h => by
    simp only [Doc.moreEntries, List.append_assoc] at h
    have h := List.append_cancel_left h
    obtain ⟨(h2 : k = k'), h⟩ := debugStr_append_inj h
    have h := List.append_cancel_left h
    obtain ⟨h3, h⟩ := compact_inj d hd.1 hd'.1 (stop_entries hr) (stop_entries hr') h
    obtain ⟨h4, h⟩ := entries_doc_inj fs hd.2 hd'.2 hr hr' h
    exact ⟨by rw [h2, h3, h4], h⟩
end

/-! ## The pretty text -/

/-- At the beginning of a line after the text. -/
def lineEnd (nl : Bool) (s : Str) : Bool := s.foldl (fun _ c => c == '\n') nl

theorem lineEnd_append (nl : Bool) (a b : Str) : lineEnd nl (a ++ b) = lineEnd (lineEnd nl a) b := by simp [lineEnd]

theorem indent_append (nl : Bool) (a b : Str) : indent nl (a ++ b) = indent nl a ++ indent (lineEnd nl a) b := by
  induction a generalizing nl with
  | nil => simp [indent, lineEnd]
  | cons c a ih => cases nl <;> simp [indent, lineEnd, ih]

theorem indent_inj : ∀ {F F' r r' : Str} (nl : Bool), lineEnd nl F = true → lineEnd nl F' = true → (∀ t, r ≠ ' ' :: t) → (∀ t, r' ≠ ' ' :: t) →
    indent nl F ++ r = indent nl F' ++ r' → F = F' ∧ r = r' := by
  intro F
  induction F with
  | nil =>
    intro F' r r' nl h1 h2 hr hr' h
    cases F' with
    | nil => exact ⟨rfl, h⟩
    | cons c F' =>
      simp only [lineEnd, List.foldl_nil] at h1
      subst h1
      simp only [indent, List.nil_append, List.cons_append] at h
      exact absurd h (hr _)
  | cons a F ih =>
    intro F' r r' nl h1 h2 hr hr' h
    cases F' with
    | nil =>
      simp only [lineEnd, List.foldl_nil] at h2
      subst h2
      simp only [indent, List.nil_append, List.cons_append] at h
      exact absurd h.symm (hr' _)
    | cons c F' =>
      have h' : a = c ∧ indent (a == '\n') F ++ r = indent (c == '\n') F' ++ r' := by
        cases nl <;> simpa [indent] using h
      obtain ⟨rfl, h'⟩ := h'
      obtain ⟨h3, h4⟩ := ih _ (by simpa [lineEnd] using h1) (by simpa [lineEnd] using h2) hr hr' h'
      exact ⟨by rw [h3], h4⟩

/-- The fields, before indentation. -/
def fieldsText (fs : List (Str × Doc)) : Str := fs.flatMap fun f => f.1 ++ c!": " ++ f.2.pretty ++ c!",\n"
/-- The items, before indentation. -/
def docText (ds : List Doc) : Str := ds.flatMap fun d => d.pretty ++ c!",\n"
/-- The entries, before indentation. -/
def entriesText (fs : List (Str × Doc)) : Str := fs.flatMap fun f => debugStr f.1 ++ c!": " ++ f.2.pretty ++ c!",\n"

theorem fieldsText_cons (k : Str) (d : Doc) (fs : List (Str × Doc)) :
    fieldsText ((k, d) :: fs) = k ++ (c!": " ++ (d.pretty ++ (c!",\n" ++ fieldsText fs))) := by
  simp only [fieldsText, List.flatMap_cons, List.append_assoc]

theorem entriesText_cons (k : Str) (d : Doc) (fs : List (Str × Doc)) :
    entriesText ((k, d) :: fs) = debugStr k ++ (c!": " ++ (d.pretty ++ (c!",\n" ++ entriesText fs))) := by
  simp only [entriesText, List.flatMap_cons, List.append_assoc]

theorem lineEnd_line (nl : Bool) (a : Str) : lineEnd nl (a ++ c!",\n") = true := by rw [lineEnd_append]; rfl

theorem lines_step {x a b : Str} (h : x = indent true (a ++ c!",\n") ++ indent true b) (hb : lineEnd true b = true) :
    x = indent true (a ++ c!",\n" ++ b) ∧ lineEnd true (a ++ c!",\n" ++ b) = true := by
  rw [indent_append true (a ++ c!",\n"), lineEnd_append true (a ++ c!",\n"), lineEnd_line]
  exact ⟨h, hb⟩

theorem fieldLines_eq (fs : List (Str × Doc)) : Doc.fieldLines fs = indent true (fieldsText fs) ∧ lineEnd true (fieldsText fs) = true := by
  induction fs with
  | nil => exact ⟨rfl, rfl⟩
  | cons f fs ih =>
    exact lines_step (by rw [Doc.fieldLines, ih.1]; rfl) ih.2

theorem itemLines_eq (ds : List Doc) : Doc.itemLines ds = indent true (docText ds) ∧ lineEnd true (docText ds) = true := by
  induction ds with
  | nil => exact ⟨rfl, rfl⟩
  | cons f fs ih =>
    exact lines_step (by rw [Doc.itemLines, ih.1]; rfl) ih.2

theorem entryLines_eq (fs : List (Str × Doc)) : Doc.entryLines fs = indent true (entriesText fs) ∧ lineEnd true (entriesText fs) = true := by
  induction fs with
  | nil => exact ⟨rfl, rfl⟩
  | cons f fs ih =>
    exact lines_step (by rw [Doc.entryLines, ih.1]; rfl) ih.2

theorem builderOf_pretty {d : Doc} {r : Str} (hd : d.Ok) (hr : Stop r) : builderOf (d.pretty ++ r) = d.builder := by
  cases d with
  | word s => rw [Doc.pretty, builderOf_run hd hr.noHead, stop_word hr]; rfl
  | str s => rw [Doc.pretty]; rfl
  | struct n fs =>
    obtain ⟨⟨hn, hn'⟩, hf, -⟩ := hd
    cases fs with
    | nil => exact absurd rfl hf
    | cons f fs =>
      simp only [Doc.pretty, List.append_assoc]
      rw [builderOf_run ⟨hn, name_word hn'⟩ (by intro c hc; simp at hc; subst hc; rfl)]; rfl
  | tuple n ds =>
    obtain ⟨⟨hn, hn'⟩, hf, -⟩ := hd
    cases ds with
    | nil => exact absurd rfl hf
    | cons f fs =>
      simp only [Doc.pretty, List.append_assoc]
      rw [builderOf_run ⟨hn, name_word hn'⟩ (by intro c hc; simp at hc; subst hc; rfl)]; rfl
  | list l => cases l <;> simp only [Doc.pretty, List.append_assoc] <;> rfl
  | map l => cases l <;> simp only [Doc.pretty, List.append_assoc] <;> rfl

theorem noHead_openLine (r : Str) : NoHead nameChar (c!" {\n" ++ r) := by intro c hc; simp at hc; subst hc; rfl
theorem noHead_parenLine (r : Str) : NoHead nameChar (c!"(\n" ++ r) := by intro c hc; simp at hc; subst hc; rfl
theorem stop_line (r : Str) : Stop (c!",\n" ++ r) := .inr (.inl ⟨_, rfl⟩)

theorem line_ne {a b : Str} : a ++ c!",\n" ++ b ≠ [] := by simp

set_option maxHeartbeats 1000000 in
mutual
theorem pretty_inj : ∀ (d : Doc) {d' : Doc} {r r' : Str}, d.Ok → d'.Ok → Stop r → Stop r' → d.pretty ++ r = d'.pretty ++ r' → d = d' ∧ r = r'
  | .word s, d', r, r', hd, hd', hr, hr', h => by
    have hb := builderOf_pretty hd hr
    rw [h, builderOf_pretty hd' hr'] at hb
    cases d' <;> simp only [Doc.builder] at hb <;> try exact absurd hb (by decide)
    simp only [Doc.pretty] at h
    obtain ⟨h1, h2⟩ := run_inj hd.2 hd'.2 hr.noHead hr'.noHead h
    exact ⟨by rw [h1], h2⟩
  | .str s, d', r, r', hd, hd', hr, hr', h => by
    have hb := builderOf_pretty hd hr
    rw [h, builderOf_pretty hd' hr'] at hb
    cases d' <;> simp only [Doc.builder] at hb <;> try exact absurd hb (by decide)
    simp only [Doc.pretty] at h
    obtain ⟨h1, h2⟩ := debugStr_append_inj h
    exact ⟨by rw [h1], h2⟩
  | .struct n [], _, r, r', hd, hd', hr, hr', h => absurd rfl hd.2.1
  | .struct n ((k, d) :: fs), d', r, r', hd, hd', hr, hr', h => by
    have hb := builderOf_pretty hd hr
    rw [h, builderOf_pretty hd' hr'] at hb
    cases d' <;> simp only [Doc.builder] at hb <;> try exact absurd hb (by decide)
    rename_i n' fs'
    cases fs' with
    | nil => exact absurd rfl hd'.2.1
    | cons f' fs' =>
      obtain ⟨k', d'⟩ := f'
      simp only [Doc.pretty, List.append_assoc] at h
      obtain ⟨h1, h⟩ := run_inj hd.1.2 hd'.1.2 (noHead_openLine _) (noHead_openLine _) h
      have h := List.append_cancel_left h
      rw [(fieldLines_eq _).1, (fieldLines_eq _).1] at h
      obtain ⟨h2, h⟩ := indent_inj true (fieldLines_eq _).2 (fieldLines_eq _).2 (by intro t ht; simp at ht) (by intro t ht; simp at ht) h
      have ho := hd.2.2
      have ho' := hd'.2.2
      rw [fieldsText_cons, fieldsText_cons] at h2
      obtain ⟨(h3 : k = k'), h2⟩ := run_inj ho.1.2 ho'.1.2 (noHead_colon _) (noHead_colon _) h2
      have h2 := List.append_cancel_left h2
      obtain ⟨h4, h2⟩ := pretty_inj d ho.2.1 ho'.2.1 (stop_line _) (stop_line _) h2
      have h5 := fieldsText_inj fs ho.2.2 ho'.2.2 (List.append_cancel_left h2)
      exact ⟨by rw [h1, h3, h4, h5], List.append_cancel_left h⟩
  | .tuple n [], _, r, r', hd, hd', hr, hr', h => absurd rfl hd.2.1
  | .tuple n (d :: ds), d', r, r', hd, hd', hr, hr', h => by
    have hb := builderOf_pretty hd hr
    rw [h, builderOf_pretty hd' hr'] at hb
    cases d' <;> simp only [Doc.builder] at hb <;> try exact absurd hb (by decide)
    rename_i n' ds'
    cases ds' with
    | nil => exact absurd rfl hd'.2.1
    | cons d' ds' =>
      simp only [Doc.pretty, List.append_assoc] at h
      obtain ⟨h1, h⟩ := run_inj hd.1.2 hd'.1.2 (noHead_parenLine _) (noHead_parenLine _) h
      have h := List.append_cancel_left h
      rw [(itemLines_eq _).1, (itemLines_eq _).1] at h
      obtain ⟨h2, h⟩ := indent_inj true (itemLines_eq _).2 (itemLines_eq _).2 (by intro t ht; simp at ht) (by intro t ht; simp at ht) h
      simp only [docText, List.flatMap_cons, List.append_assoc] at h2
      obtain ⟨h4, h2⟩ := pretty_inj d hd.2.2.1 hd'.2.2.1 (stop_line _) (stop_line _) h2
      have h5 := docText_inj ds hd.2.2.2 hd'.2.2.2 (List.append_cancel_left h2)
      exact ⟨by rw [h1, h4, h5], List.append_cancel_left h⟩
  | .list [], d', r, r', hd, hd', hr, hr', h => by
    have hb := builderOf_pretty hd hr
    rw [h, builderOf_pretty hd' hr'] at hb
    cases d' <;> simp only [Doc.builder] at hb <;> try exact absurd hb (by decide)
    rename_i ds'
    cases ds' with
    | nil => exact ⟨rfl, by simpa [Doc.pretty] using h⟩
    | cons d' ds' => simp [Doc.pretty] at h
  | .list (d :: ds), d', r, r', hd, hd', hr, hr', h => by
    have hb := builderOf_pretty hd hr
    rw [h, builderOf_pretty hd' hr'] at hb
    cases d' <;> simp only [Doc.builder] at hb <;> try exact absurd hb (by decide)
    rename_i ds'
    cases ds' with
    | nil => simp [Doc.pretty] at h
    | cons d' ds' =>
      simp only [Doc.pretty, List.append_assoc] at h
      have h := List.append_cancel_left h
      rw [(itemLines_eq _).1, (itemLines_eq _).1] at h
      obtain ⟨h2, h⟩ := indent_inj true (itemLines_eq _).2 (itemLines_eq _).2 (by intro t ht; simp at ht) (by intro t ht; simp at ht) h
      simp only [docText, List.flatMap_cons, List.append_assoc] at h2
      obtain ⟨h4, h2⟩ := pretty_inj d hd.1 hd'.1 (stop_line _) (stop_line _) h2
      have h5 := docText_inj ds hd.2 hd'.2 (List.append_cancel_left h2)
      exact ⟨by rw [h4, h5], List.append_cancel_left h⟩
  | .map [], d', r, r', hd, hd', hr, hr', h => by
    have hb := builderOf_pretty hd hr
    rw [h, builderOf_pretty hd' hr'] at hb
    cases d' <;> simp only [Doc.builder] at hb <;> try exact absurd hb (by decide)
    rename_i fs'
    cases fs' with
    | nil => exact ⟨rfl, by simpa [Doc.pretty] using h⟩
    | cons d' ds' => simp [Doc.pretty] at h
  | .map ((k, d) :: fs), d', r, r', hd, hd', hr, hr', h => by
    have hb := builderOf_pretty hd hr
    rw [h, builderOf_pretty hd' hr'] at hb
    cases d' <;> simp only [Doc.builder] at hb <;> try exact absurd hb (by decide)
    rename_i fs'
    cases fs' with
    | nil => simp [Doc.pretty] at h
    | cons f' fs' =>
      obtain ⟨k', d'⟩ := f'
      simp only [Doc.pretty, List.append_assoc] at h
      have h := List.append_cancel_left h
      rw [(entryLines_eq _).1, (entryLines_eq _).1] at h
      obtain ⟨h2, h⟩ := indent_inj true (entryLines_eq _).2 (entryLines_eq _).2 (by intro t ht; simp at ht) (by intro t ht; simp at ht) h
      rw [entriesText_cons, entriesText_cons] at h2
      obtain ⟨(h3 : k = k'), h2⟩ := debugStr_append_inj h2
      have h2 := List.append_cancel_left h2
      obtain ⟨h4, h2⟩ := pretty_inj d hd.1 hd'.1 (stop_line _) (stop_line _) h2
      have h5 := entriesText_inj fs hd.2 hd'.2 (List.append_cancel_left h2)
      exact ⟨by rw [h3, h4, h5], List.append_cancel_left h⟩
theorem docText_inj : ∀ (ds : List Doc) {ds' : List Doc}, Doc.OkItems ds → Doc.OkItems ds' → docText ds = docText ds' → ds = ds'
  | [], [], _, _, _ => rfl
  | [], d' :: ds', _, _, h => by
    simp only [docText, List.flatMap_cons] at h; exact absurd h.symm line_ne
  | d :: ds, [], _, _, h => by
    simp only [docText, List.flatMap_cons] at h; exact absurd h line_ne
  | d :: ds, d' :: ds', hd, hd', h => by
    simp only [docText, List.flatMap_cons, List.append_assoc] at h
    obtain ⟨h4, h⟩ := pretty_inj d hd.1 hd'.1 (stop_line _) (stop_line _) h
    have h5 := docText_inj ds hd.2 hd'.2 (List.append_cancel_left h)
    rw [h4, h5]
theorem fieldsText_inj : ∀ (fs : List (Str × Doc)) {fs' : List (Str × Doc)}, Doc.OkFields fs → Doc.OkFields fs' → fieldsText fs = fieldsText fs' → fs = fs'
  | [], [], _, _, _ => rfl
  | [], d' :: ds', _, _, h => by
    simp only [fieldsText, List.flatMap_cons] at h; exact absurd h.symm line_ne
  | d :: ds, [], _, _, h => by
    simp only [fieldsText, List.flatMap_cons] at h; exact absurd h line_ne
  | (k, d) :: fs, (k', d') :: fs', hd, hd', h => by
    rw [fieldsText_cons, fieldsText_cons] at h
    obtain ⟨(h3 : k = k'), h⟩ := run_inj hd.1.2 hd'.1.2 (noHead_colon _) (noHead_colon _) h
    have h := List.append_cancel_left h
    obtain ⟨h4, h⟩ := pretty_inj d hd.2.1 hd'.2.1 (stop_line _) (stop_line _) h
    have h5 := fieldsText_inj fs hd.2.2 hd'.2.2 (List.append_cancel_left h)
    rw [h3, h4, h5]
theorem entriesText_inj : ∀ (fs : List (Str × Doc)) {fs' : List (Str × Doc)}, Doc.OkEntries fs → Doc.OkEntries fs' → entriesText fs = entriesText fs' → fs = fs'
  | [], [], _, _, _ => rfl
  | [], d' :: ds', _, _, h => by
    simp only [entriesText, List.flatMap_cons] at h; exact absurd h.symm line_ne
  | d :: ds, [], _, _, h => by
    simp only [entriesText, List.flatMap_cons] at h; exact absurd h line_ne
  | (k, d) :: fs, (k', d') :: fs', hd, hd', h => by
    rw [entriesText_cons, entriesText_cons] at h
    obtain ⟨(h3 : k = k'), h⟩ := debugStr_append_inj h
    have h := List.append_cancel_left h
    obtain ⟨h4, h⟩ := pretty_inj d hd.1 hd'.1 (stop_line _) (stop_line _) h
    have h5 := entriesText_inj fs hd.2 hd'.2 (List.append_cancel_left h)
    rw [h3, h4, h5]
end


end

end Ikal
