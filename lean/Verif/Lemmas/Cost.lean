import Verif.Cost
import Verif.Lemmas.Str

/-! # Counting the characters the parsers look at -/

namespace Ikal.Cost

set_option linter.unusedSectionVars false

/-! ## Forgetting the counts -/

/-- The same parser, without the count. -/
def Counts {α : Type} (p : CP α) (q : P α) : Prop := ∀ i, (p i).1 = q i

section
variable {α β γ : Type} {p : CP α} {p' : P α} {q : CP β} {q' : P β} {s : CP γ} {s' : P γ}

theorem tag_counts (t : Str) : Counts (tag t) (Nom.tag t) := fun _ => rfl
theorem takeWhile_counts (f : Char → Bool) : Counts (takeWhile f) (Nom.takeWhile f) := fun _ => rfl
theorem takeTill_counts (f : Char → Bool) : Counts (takeTill f) (Nom.takeTill f) := fun _ => rfl
theorem char_counts (c : Char) : Counts (char c) (Nom.char c) := fun _ => rfl
theorem lineEnding_counts : Counts lineEnding Nom.lineEnding := fun _ => rfl

theorem map_counts (h : Counts p p') (f : α → β) : Counts (map p f) (Nom.map p' f) := by
  intro i
  simp only [map, Nom.map, ← h i]
  generalize p i = x
  rcases x with ⟨_ | _ | _, n⟩ <;> rfl

theorem mapRes_counts (h : Counts p p') (f : α → Res β) : Counts (mapRes p f) (Nom.mapRes p' f) := by
  intro i
  simp only [mapRes, Nom.mapRes, ← h i]
  generalize p i = x
  rcases x with ⟨⟨r, a⟩ | _ | _, n⟩
  · simp only []
    cases f a <;> rfl
  · rfl
  · rfl

theorem not_counts (h : Counts p p') : Counts (not p) (Nom.not p') := by
  intro i
  simp only [not, Nom.not, ← h i]
  generalize p i = x
  rcases x with ⟨_ | _ | _, n⟩ <;> rfl

theorem opt_counts (h : Counts p p') : Counts (opt p) (Nom.opt p') := by
  intro i
  simp only [opt, Nom.opt, ← h i]
  generalize p i = x
  rcases x with ⟨_ | _ | _, n⟩ <;> rfl

theorem pair_counts (h : Counts p p') (h2 : Counts q q') : Counts (pair p q) (Nom.pair p' q') := by
  intro i
  simp only [pair, Nom.pair, ← h i]
  generalize p i = x
  rcases x with ⟨⟨r, a⟩ | _ | _, n⟩
  · simp only [← h2 r]
    generalize q r = y
    rcases y with ⟨_ | _ | _, m⟩ <;> rfl
  · rfl
  · rfl

theorem preceded_counts (h : Counts p p') (h2 : Counts q q') : Counts (preceded p q) (Nom.preceded p' q') := map_counts (pair_counts h h2) _
theorem terminated_counts (h : Counts p p') (h2 : Counts q q') : Counts (terminated p q) (Nom.terminated p' q') := map_counts (pair_counts h h2) _
theorem delimited_counts (h : Counts p p') (h2 : Counts q q') (h3 : Counts s s') : Counts (delimited p q s) (Nom.delimited p' q' s') :=
  preceded_counts h (terminated_counts h2 h3)
theorem separatedPair_counts (h : Counts p p') (h2 : Counts q q') (h3 : Counts s s') : Counts (separatedPair p q s) (Nom.separatedPair p' q' s') :=
  pair_counts h (preceded_counts h2 h3)

theorem alt_counts {p2 : CP α} {p2' : P α} (h : Counts p p') (h2 : Counts p2 p2') : Counts (alt p p2) (Nom.alt p' p2') := by
  intro i
  simp only [alt, Nom.alt, ← h i, ← h2 i]
  generalize p i = x
  rcases x with ⟨_ | _ | _, n⟩ <;> rfl

theorem many0Go_counts (h : Counts p p') (k : Nat) : Counts (many0Go p k) (Nom.many0Go p' k) := by
  induction k with
  | zero => exact fun _ => rfl
  | succ k ih =>
    intro i
    simp only [many0Go, Nom.many0Go, ← h i]
    generalize p i = x
    rcases x with ⟨⟨r, a⟩ | _ | _, n⟩
    · simp only [← ih r]
      split
      · generalize many0Go p k r = y
        rcases y with ⟨_ | _ | _, m⟩ <;> rfl
      · rfl
    · rfl
    · rfl

theorem many0_counts (h : Counts p p') : Counts (many0 p) (Nom.many0 p') := fun i => many0Go_counts h _ i

end

theorem param_counts : Counts param Ikal.param :=
  alt_counts (delimited_counts (char_counts _) (separatedPair_counts (takeWhile_counts _) (tag_counts _) (takeTill_counts _)) (char_counts _))
    (preceded_counts (char_counts _) (separatedPair_counts (takeWhile_counts _) (char_counts _)
      (preceded_counts (opt_counts (tag_counts _)) (takeTill_counts _))))

theorem params_counts : Counts params Ikal.params := map_counts (many0_counts param_counts) _

theorem contentLine_counts : Counts contentLine Ikal.contentLine :=
  map_counts (pair_counts (not_counts (tag_counts _)) (pair_counts (not_counts (tag_counts _)) (pair_counts (takeWhile_counts _)
    (pair_counts params_counts (pair_counts (char_counts _) (pair_counts (opt_counts (takeTill_counts _)) lineEnding_counts)))))) _

theorem contentLines_counts : Counts contentLines Ikal.contentLines := many0_counts contentLine_counts

theorem componentP_counts {α : Type} (name : Str) (conv : List ContentLine → Res α) : Counts (componentP name conv) (Ikal.componentP name conv) :=
  mapRes_counts (delimited_counts (tag_counts _) contentLines_counts (tag_counts _)) _

section
variable [Platform]

theorem valarm_counts : Counts valarm Ikal.valarm := componentP_counts _ _
theorem vfreebusy_counts : Counts vfreebusy Ikal.vfreebusy := componentP_counts _ _
theorem vtodo_counts : Counts vtodo Ikal.vtodo := componentP_counts _ _
theorem vjournal_counts : Counts vjournal Ikal.vjournal := componentP_counts _ _
theorem standard_counts : Counts standard Ikal.standard := componentP_counts _ _
theorem daylight_counts : Counts daylight Ikal.daylight := componentP_counts _ _

theorem vevent_counts : Counts vevent Ikal.vevent :=
  mapRes_counts (delimited_counts (tag_counts _) (pair_counts contentLines_counts (many0_counts valarm_counts)) (tag_counts _)) _

theorem vtimezone_counts : Counts vtimezone Ikal.vtimezone :=
  mapRes_counts (delimited_counts (tag_counts _) (pair_counts contentLines_counts
    (many0_counts (alt_counts (map_counts standard_counts _) (map_counts daylight_counts _)))) (tag_counts _)) _

theorem component_counts : Counts component Ikal.component :=
  alt_counts (map_counts valarm_counts _) (alt_counts (map_counts vevent_counts _) (alt_counts (map_counts vfreebusy_counts _)
    (alt_counts (map_counts vjournal_counts _) (alt_counts (map_counts vtimezone_counts _) (map_counts vtodo_counts _)))))

theorem vcalendar_counts : Counts vcalendar Ikal.vcalendar :=
  mapRes_counts (delimited_counts (tag_counts _) (pair_counts contentLines_counts (many0_counts component_counts)) (tag_counts _)) _

end

/-! ## Bounds -/

/-- What the search for a closing quote may still cost: nothing if there is no quote any more. -/
def quotes (i : Str) : Nat := if '"' ∈ i then i.length else 0

theorem quotes_le (i : Str) : quotes i ≤ i.length := by unfold quotes; split <;> omega

theorem quotes_append (a b : Str) : quotes b ≤ quotes (a ++ b) := by
  unfold quotes
  by_cases h : '"' ∈ b
  · rw [if_pos h, if_pos (List.mem_append_right _ h)]
    simp
  · rw [if_neg h]
    omega

theorem split_while (f : Char → Bool) (i : Str) : i = i.takeWhile f ++ i.dropWhile f := (List.takeWhile_append_dropWhile).symm

theorem taken_length (f : Char → Bool) (i : Str) : (i.takeWhile f).length + (i.dropWhile f).length = i.length := by
  rw [← List.length_append, List.takeWhile_append_dropWhile]

theorem compared_le (t i : Str) : compared t i ≤ t.length := by
  induction t generalizing i with
  | nil => simp [compared]
  | cons a t ih =>
    cases i with
    | nil => simp [compared]
    | cons c i =>
      simp only [compared, List.length_cons]
      have := ih i
      split <;> omega

theorem strip_some {t i r : Str} (h : stripPrefix t i = some r) : i = t ++ r := by
  induction t generalizing i with
  | nil => simpa [stripPrefix] using h
  | cons a t ih =>
    cases i with
    | nil => simp [stripPrefix] at h
    | cons c i =>
      simp only [stripPrefix] at h
      split at h
      · next e => rw [e, ih h]; rfl
      · cases h

theorem strip_append (t r : Str) : stripPrefix t (t ++ r) = some r := by
  induction t with
  | nil => simp [stripPrefix]
  | cons a t ih => simp [stripPrefix, ih]

theorem drop_head {f : Char → Bool} {i : Str} {c : Char} {r : Str} (h : i.dropWhile f = c :: r) : f c = false := by
  induction i with
  | nil => simp at h
  | cons a i ih =>
    simp only [List.dropWhile_cons] at h
    split at h
    · exact ih h
    · next e =>
      cases h
      simpa using e

/-! Runs of the combinators. -/

section
variable {α β γ : Type} {p : CP α} {q : CP β} {i r r' : Str} {a : α} {b : β} {n m : Nat}

theorem map_ok (f : α → β) (h : p i = (.ok r a, n)) : map p f i = (.ok r (f a), n) := by simp only [map, h]
theorem map_err (f : α → β) (h : p i = (.err, n)) : map p f i = (.err, n) := by simp only [map, h]
theorem map_panic (f : α → β) (h : p i = (.panic, n)) : map p f i = (.panic, n) := by simp only [map, h]
theorem pair_ok (h : p i = (.ok r a, n)) (h2 : q r = (.ok r' b, m)) : pair p q i = (.ok r' (a, b), n + m) := by simp only [pair, h, h2]
theorem pair_err (h : p i = (.err, n)) : pair p q i = (.err, n) := by simp only [pair, h]
theorem pair_then_err (h : p i = (.ok r a, n)) (h2 : q r = (.err, m)) : pair p q i = (.err, n + m) := by simp only [pair, h, h2]
theorem pair_panic (h : p i = (.panic, n)) : pair p q i = (.panic, n) := by simp only [pair, h]
theorem pair_then_panic (h : p i = (.ok r a, n)) (h2 : q r = (.panic, m)) : pair p q i = (.panic, n + m) := by simp only [pair, h, h2]
theorem opt_ok (h : p i = (.ok r a, n)) : opt p i = (.ok r (some a), n) := by simp only [opt, h]
theorem opt_err (h : p i = (.err, n)) : opt p i = (.ok i none, n) := by simp only [opt, h]
theorem not_ok (h : p i = (.ok r a, n)) : not p i = (.err, n) := by simp only [not, h]
theorem not_err (h : p i = (.err, n)) : not p i = (.ok i (), n) := by simp only [not, h]
theorem alt_ok {p2 : CP α} (h : p i = (.ok r a, n)) : alt p p2 i = (.ok r a, n) := by simp only [alt, h]
theorem alt_panic {p2 : CP α} (h : p i = (.panic, n)) : alt p p2 i = (.panic, n) := by simp only [alt, h]
theorem alt_err {p2 : CP α} {x : NRes α} (h : p i = (.err, n)) (h2 : p2 i = (x, m)) : alt p p2 i = (x, n + m) := by simp only [alt, h, h2]
theorem char_ok (c : Char) (r : Str) : char c (c :: r) = (.ok r c, 1) := by
  simp only [char, Nom.char, if_true]
  congr 1
theorem char_err {c : Char} (h : i.head? ≠ some c) : ∃ n, n ≤ 1 ∧ char c i = (.err, n) := by
  cases i with
  | nil => exact ⟨_, by simp, rfl⟩
  | cons d r =>
    refine ⟨min 1 (d :: r).length, by omega, ?_⟩
    simp only [char, Nom.char]
    rw [if_neg (by simpa using h)]
theorem while_run (f : Char → Bool) (i : Str) : ∃ n, n ≤ (i.takeWhile f).length + 1 ∧ n ≤ i.length ∧
    takeWhile f i = (.ok (i.dropWhile f) (i.takeWhile f), n) := ⟨_, Nat.min_le_left _ _, Nat.min_le_right _ _, rfl⟩
theorem tag_ok (t r : Str) : ∃ n, n ≤ t.length ∧ tag t (t ++ r) = (.ok r t, n) :=
  ⟨_, compared_le t (t ++ r), by simp only [tag, Nom.tag, strip_append]⟩
theorem tag_err {t : Str} (h : ∀ r, i ≠ t ++ r) : ∃ n, n ≤ t.length ∧ tag t i = (.err, n) := by
  refine ⟨_, compared_le t i, ?_⟩
  simp only [tag, Nom.tag]
  cases hs : stripPrefix t i with
  | none => rfl
  | some r => exact absurd (strip_some hs) (h r)

end

theorem starts_or (t i : Str) : (∃ r, i = t ++ r) ∨ ∀ r, i ≠ t ++ r := by
  by_cases h : ∃ r, i = t ++ r
  · exact .inl h
  · exact .inr fun r hr => h ⟨r, hr⟩

/-- A plain value: what is taken, and at most four more. -/
theorem attr_cost (r : Str) : ∃ a r' v n, attrValue r = (.ok r' v, n) ∧ r = a ++ r' ∧ n ≤ 4 + a.length ∧ (r.head? = some '"' → '"' ∈ a) := by
  rcases starts_or c!"\r\n " r with ⟨r2, rfl⟩ | h
  · obtain ⟨n, hn, h1⟩ := tag_ok c!"\r\n " r2
    obtain ⟨m, hm, -, h2⟩ := while_run (fun c => !(c = ';' || c = ':')) r2
    refine ⟨c!"\r\n " ++ r2.takeWhile (fun c => !(c = ';' || c = ':')), _, _, _, map_ok _ (pair_ok (opt_ok h1) h2), ?_, ?_, ?_⟩
    · rw [List.append_assoc, ← split_while]
    · simp only [List.length_cons, List.length_nil, List.length_append] at hn hm ⊢
      omega
    · intro hq
      simp at hq
  · obtain ⟨n, hn, h1⟩ := tag_err h
    obtain ⟨m, hm, -, h2⟩ := while_run (fun c => !(c = ';' || c = ':')) r
    refine ⟨r.takeWhile (fun c => !(c = ';' || c = ':')), _, _, _, map_ok _ (pair_ok (opt_err h1) h2), split_while _ r, ?_, ?_⟩
    · simp only [List.length_cons, List.length_nil] at hn
      omega
    · intro hq
      cases r with
      | nil => simp at hq
      | cons c r =>
        cases hq
        simp

/-- The second way to read a parameter. -/
theorem plain_cost {j r1 : Str} (h : j.dropWhile isNameChar = '=' :: r1) : ∃ a r' x n,
    preceded (char ';') (separatedPair key (char '=') attrValue) (';' :: j) = (.ok r' x, n) ∧ r1 = a ++ r' ∧
      n ≤ 7 + (j.takeWhile isNameChar).length + a.length ∧ (r1.head? = some '"' → '"' ∈ a) := by
  obtain ⟨a, r', v, n, h1, h2, h3, h4⟩ := attr_cost r1
  obtain ⟨m, hm, -, hk⟩ := while_run isNameChar j
  rw [h] at hk
  exact ⟨a, r', _, _, map_ok _ (pair_ok (char_ok ';' j) (pair_ok hk (map_ok _ (pair_ok (char_ok '=' r1) h1)))), h2, by omega, h4⟩

/-- One parameter: cheap if there is no semicolon; otherwise at most what it consumes, and the text once if the last quote is consumed. -/
theorem param_cost (i : Str) :
    (i.head? ≠ some ';' ∧ ∃ n, n ≤ 2 ∧ param i = (.err, n)) ∨
    (i.head? = some ';' ∧ ∃ n, n ≤ 2 * i.length + 5 ∧ param i = (.err, n)) ∨
    (∃ a r x n, param i = (.ok r x, n) ∧ i = a ++ r ∧ 2 ≤ a.length ∧ n + quotes r ≤ 6 * a.length + quotes i) := by
  by_cases hd : i.head? = some ';'
  · obtain ⟨j, rfl⟩ : ∃ j, i = ';' :: j := by
      cases i with
      | nil => simp at hd
      | cons c j => exact ⟨j, by simpa using hd⟩
    have hk := taken_length isNameChar j
    have hj := split_while isNameChar j
    obtain ⟨m, hm, hm2, hkey⟩ := while_run isNameChar j
    by_cases hc : (j.dropWhile isNameChar).head? = some '='
    · obtain ⟨r1, h1⟩ : ∃ r1, j.dropWhile isNameChar = '=' :: r1 := by
        cases h : j.dropWhile isNameChar with
        | nil => simp [h] at hc
        | cons c j => exact ⟨j, by simpa [h] using hc⟩
      rw [h1] at hk hj hkey
      obtain ⟨a, r', x, n, h2, h3, h4, h5⟩ := plain_cost h1
      have hi : ';' :: j = (';' :: (j.takeWhile isNameChar ++ ('=' :: a))) ++ r' := by
        conv => lhs; rw [hj, h3]
        simp
      rcases starts_or c!"=\"" ('=' :: r1) with ⟨r2, hr2⟩ | h6
      · replace hr2 : r1 = '"' :: r2 := by simpa using hr2
        subst hr2
        have hk2 := taken_length (fun c => !(c = '"')) r2
        have hs2 := split_while (fun c => !(c = '"')) r2
        obtain ⟨t, ht, htag⟩ := tag_ok c!"=\"" r2
        obtain ⟨w, hw, hw2, hq⟩ := while_run (fun c => !(c = '"')) r2
        by_cases hc : (r2.dropWhile fun c => !(c = '"')).head? = some '"'
        · obtain ⟨r3, h7⟩ : ∃ r3, (r2.dropWhile fun c => !(c = '"')) = '"' :: r3 := by
            cases h : r2.dropWhile fun c => !(c = '"') with
            | nil => simp [h] at hc
            | cons c j => exact ⟨j, by simpa [h] using hc⟩
          rw [h7] at hk2 hs2 hq
          refine .inr (.inr ⟨';' :: (j.takeWhile isNameChar ++ ('=' :: '"' :: (r2.takeWhile (fun c => !(c = '"')) ++ ['"']))), r3, _, _,
            alt_ok (map_ok _ (pair_ok (char_ok ';' j) (map_ok _ (pair_ok (pair_ok hkey (map_ok _ (pair_ok htag hq))) (char_ok '"' r3))))), ?_, ?_, ?_⟩)
          · conv => lhs; rw [hj, hs2]
            simp
          · simp only [List.length_cons, List.length_append]
            omega
          · have hqq : quotes r3 ≤ quotes (';' :: j) := by
              have : ';' :: j = (';' :: (j.takeWhile isNameChar ++ ('=' :: '"' :: (r2.takeWhile (fun c => !(c = '"')) ++ ['"'])))) ++ r3 := by
                conv => lhs; rw [hj, hs2]
                simp
              rw [this]
              exact quotes_append _ _
            simp only [List.length_cons, List.length_append, List.length_nil] at ht ⊢
            omega
        · obtain ⟨e, he, herr⟩ := char_err hc
          have hnil : r2.dropWhile (fun c => !(c = '"')) = [] := by
            cases h : r2.dropWhile fun c => !(c = '"') with
            | nil => rfl
            | cons c r =>
              have := drop_head h
              simp only [Bool.not_eq_false', decide_eq_true_eq] at this
              rw [h, this] at hc
              simp at hc
          rw [hnil] at hk2 hs2
          have hno : '"' ∉ r2 := by
            rw [hs2, List.append_nil]
            intro hm
            have := List.all_eq_true.1 List.all_takeWhile _ hm
            simp at this
          refine .inr (.inr ⟨_, r', x, _, alt_err (map_err _ (pair_then_err (char_ok ';' j)
            (map_err _ (pair_then_err (pair_ok hkey (map_ok _ (pair_ok htag hq))) herr)))) h2, hi, ?_, ?_⟩)
          · simp only [List.length_cons, List.length_append]
            omega
          · have hq1 : quotes r' = 0 := by
              have ha := h5 rfl
              cases a with
              | nil => simp at ha
              | cons c a =>
                rw [List.cons_append] at h3
                cases h3
                unfold quotes
                rw [if_neg fun h => hno (List.mem_append_right _ h)]
            have hq2 : quotes (';' :: j) = j.length + 1 := by
              unfold quotes
              rw [if_pos (by rw [hj]; simp)]
              rfl
            rw [hq1, hq2]
            simp only [List.length_cons, List.length_append, List.length_nil] at ht hk ⊢
            omega
      · obtain ⟨t, ht, htag⟩ := tag_err h6
        refine .inr (.inr ⟨_, r', x, _, alt_err (map_err _ (pair_then_err (char_ok ';' j) (map_err _ (pair_err (pair_then_err hkey (map_err _ (pair_err htag))))))) h2,
          hi, ?_, ?_⟩)
        · simp only [List.length_cons, List.length_append]
          omega
        · have hq : quotes r' ≤ quotes (';' :: j) := by rw [hi]; exact quotes_append _ _
          simp only [List.length_cons, List.length_append, List.length_nil] at ht ⊢
          omega
    · refine .inr (.inl ⟨rfl, ?_⟩)
      obtain ⟨t, ht, htag⟩ := tag_err (i := j.dropWhile isNameChar) (t := c!"=\"") (fun r hr => hc (by rw [hr]; rfl))
      obtain ⟨e, he, herr⟩ := char_err hc
      refine ⟨_, ?_, alt_err (map_err _ (pair_then_err (char_ok ';' j) (map_err _ (pair_err (pair_then_err hkey (map_err _ (pair_err htag)))))))
        (map_err _ (pair_then_err (char_ok ';' j) (pair_then_err hkey (map_err _ (pair_err herr)))))⟩
      simp only [List.length_cons, List.length_nil] at ht ⊢
      omega
  · obtain ⟨n, hn, h⟩ := char_err hd
    exact .inl ⟨hd, _, by omega, alt_err (map_err _ (pair_err h)) (map_err _ (pair_err h))⟩

/-- The parameters of a line; the failed last attempt is cheap unless there is a semicolon. -/
theorem many_params (k : Nat) : ∀ i : Str, i.length < k → ∃ a r x n, many0Go param k i = (.ok r x, n) ∧ i = a ++ r ∧
    n + quotes r ≤ 6 * a.length + quotes i + 2 + (if r.head? = some ';' then 2 * r.length + 5 else 0) := by
  induction k with
  | zero => exact fun i h => absurd h (by omega)
  | succ k ih =>
    intro i hi
    rcases param_cost i with ⟨hd, n, hn, h⟩ | ⟨hd, n, hn, h⟩ | ⟨a, r, x, n, h, h2, h3, h4⟩
    · refine ⟨[], i, [], n, by simp only [many0Go, h], rfl, ?_⟩
      rw [if_neg hd]
      simp only [List.length_nil]
      omega
    · refine ⟨[], i, [], n, by simp only [many0Go, h], rfl, ?_⟩
      rw [if_pos hd]
      simp only [List.length_nil]
      omega
    · have hl : i.length = a.length + r.length := by rw [h2, List.length_append]
      obtain ⟨b, r', y, m, g1, g2, g3⟩ := ih r (by omega)
      refine ⟨a ++ b, r', x :: y, n + m, ?_, by rw [h2, g2, List.append_assoc], ?_⟩
      · simp only [many0Go, h, g1]
        rw [if_pos (by omega)]
      · rw [List.length_append]
        omega

theorem params_cost (i : Str) : ∃ a r x n, params i = (.ok r x, n) ∧ i = a ++ r ∧
    n + quotes r ≤ 6 * a.length + quotes i + 2 + (if r.head? = some ';' then 2 * r.length + 5 else 0) := by
  obtain ⟨a, r, x, n, h, h2, h3⟩ := many_params (i.length + 1) i (by omega)
  exact ⟨a, r, _, n, map_ok _ h, h2, h3⟩

/-- A line that opens or closes a component. -/
def Mark (i : Str) : Prop := (∃ r, i = c!"BEGIN:" ++ r) ∨ ∃ r, i = c!"END:" ++ r

theorem value_run (i : Str) : ∃ n, n ≤ (i.takeWhile (fun c => !isLineEnding c)).length + 1 ∧
    opt value i = (.ok (i.dropWhile fun c => !isLineEnding c) (some (i.takeWhile fun c => !isLineEnding c)), n) := by
  obtain ⟨n, h1, -, h⟩ := while_run (fun c => !isLineEnding c) i
  exact ⟨n, h1, opt_ok h⟩

theorem lineEnding_run (i : Str) : ∃ n, n ≤ 3 ∧ ((∃ a r x, a.length ≠ 0 ∧ i = a ++ r ∧ lineEnding i = (.ok r x, n)) ∨ lineEnding i = (.err, n)) := by
  have h1 := compared_le ['\n'] i
  have h2 := compared_le ['\r', '\n'] i
  refine ⟨(lineEnding i).2, ?_, ?_⟩
  · simp only [lineEnding, List.length_cons, List.length_nil] at h1 h2 ⊢
    split <;> omega
  · have : (∃ a r x, a.length ≠ 0 ∧ i = a ++ r ∧ Nom.lineEnding i = .ok r x) ∨ Nom.lineEnding i = .err := by
      unfold Nom.lineEnding
      split
      · next r => exact .inl ⟨['\n'], r, _, by simp, rfl, rfl⟩
      · next r => exact .inl ⟨['\r', '\n'], r, _, by simp, rfl, rfl⟩
      · exact .inr rfl
    rcases this with ⟨a, r, x, ha, hi, h⟩ | h
    · exact .inl ⟨a, r, x, ha, hi, by simp only [lineEnding, h]⟩
    · exact .inr (by simp only [lineEnding, h])

/-- One content line. -/
theorem line_cost (i : Str) :
    (Mark i ∧ ∃ n, n ≤ 10 ∧ contentLine i = (.err, n)) ∨
    (¬ Mark i ∧ ∃ n, n ≤ 9 * i.length + quotes i + 19 ∧ contentLine i = (.err, n)) ∨
    (¬ Mark i ∧ ∃ a r x n, contentLine i = (.ok r x, n) ∧ i = a ++ r ∧ 2 ≤ a.length ∧ n + quotes r ≤ 9 * a.length + quotes i) := by
  rcases starts_or c!"BEGIN:" i with ⟨r, rfl⟩ | hb
  · obtain ⟨n, hn, h⟩ := tag_ok c!"BEGIN:" r
    simp only [List.length_cons, List.length_nil] at hn
    exact .inl ⟨.inl ⟨r, rfl⟩, n, by omega, map_err _ (pair_err (not_ok h))⟩
  obtain ⟨n1, hn1, t1⟩ := tag_err hb
  rcases starts_or c!"END:" i with ⟨r, rfl⟩ | he
  · obtain ⟨n, hn, h⟩ := tag_ok c!"END:" r
    simp only [List.length_cons, List.length_nil] at hn hn1
    exact .inl ⟨.inr ⟨r, rfl⟩, _, by omega, map_err _ (pair_then_err (not_err t1) (pair_err (not_ok h)))⟩
  obtain ⟨n2, hn2, t2⟩ := tag_err he
  simp only [List.length_cons, List.length_nil] at hn1 hn2
  have hm : ¬ Mark i := by
    rintro (⟨r, h⟩ | ⟨r, h⟩)
    · exact hb r h
    · exact he r h
  refine .inr ?_
  have hk := taken_length isNameChar i
  have hi := split_while isNameChar i
  obtain ⟨n3, hn3, hn3', t3⟩ := while_run isNameChar i
  generalize i.takeWhile isNameChar = k at *
  generalize i.dropWhile isNameChar = r1 at *
  obtain ⟨p, r2, x, n4, t4, h4, hn4⟩ := params_cost r1
  have hl2 : r1.length = p.length + r2.length := by rw [h4, List.length_append]
  have hq1 : quotes r1 ≤ quotes i := by rw [hi]; exact quotes_append _ _
  by_cases hc : r2.head? = some ':'
  · obtain ⟨r3, rfl⟩ : ∃ r3, r2 = ':' :: r3 := by
      cases r2 with
      | nil => simp at hc
      | cons c j => exact ⟨j, by simpa using hc⟩
    rw [if_neg (by simp)] at hn4
    obtain ⟨n5, hn5, t5⟩ := value_run r3
    have hv := taken_length (fun c => !isLineEnding c) r3
    have hsv := split_while (fun c => !isLineEnding c) r3
    generalize r3.takeWhile (fun c => !isLineEnding c) = v at *
    generalize r3.dropWhile (fun c => !isLineEnding c) = r4 at *
    have hq3 : quotes r4 ≤ quotes (':' :: r3) := by
      have : ':' :: r3 = (':' :: v) ++ r4 := by rw [hsv]; rfl
      rw [this]; exact quotes_append _ _
    obtain ⟨n6, hn6, ⟨e, r5, y, h6, h7, t6⟩ | t6⟩ := lineEnding_run r4
    · have hl5 : r4.length = e.length + r5.length := by rw [h7, List.length_append]
      have hq5 : quotes r5 ≤ quotes r4 := by rw [h7]; exact quotes_append _ _
      refine .inr ⟨hm, k ++ (p ++ (':' :: (v ++ e))), r5, _, _, map_ok _ (pair_ok (not_err t1) (pair_ok (not_err t2) (pair_ok t3 (pair_ok t4
        (pair_ok (char_ok ':' r3) (pair_ok t5 t6)))))), ?_, ?_, ?_⟩
      · conv => lhs; rw [hi, h4, hsv, h7]
        simp
      · simp only [List.length_append, List.length_cons]
        omega
      · simp only [List.length_append, List.length_cons] at *
        omega
    · refine .inl ⟨hm, _, ?_, map_err _ (pair_then_err (not_err t1) (pair_then_err (not_err t2) (pair_then_err t3 (pair_then_err t4
        (pair_then_err (char_ok ':' r3) (pair_then_err t5 t6))))))⟩
      simp only [List.length_cons] at *
      omega
  · obtain ⟨n5, hn5, t5⟩ := char_err hc
    refine .inl ⟨hm, _, ?_, map_err _ (pair_then_err (not_err t1) (pair_then_err (not_err t2) (pair_then_err t3 (pair_then_err t4 (pair_err t5)))))⟩
    have : (if r2.head? = some ';' then 2 * r2.length + 5 else 0) ≤ 2 * r2.length + 5 := by split <;> omega
    omega

open Classical in
/-- What the failed last attempt to read a line may cost. -/
noncomputable def restCost (r : Str) : Nat := if Mark r then 0 else 9 * r.length + quotes r + 9

theorem rest_mark {r : Str} (h : Mark r) : restCost r = 0 := by unfold restCost; rw [if_pos h]
theorem rest_le (r : Str) : restCost r ≤ 9 * r.length + quotes r + 9 := by unfold restCost; split <;> omega

theorem many_lines (k : Nat) : ∀ i : Str, i.length < k → ∃ a r x n, many0Go contentLine k i = (.ok r x, n) ∧ i = a ++ r ∧
    n + quotes r ≤ 9 * a.length + quotes i + 10 + restCost r := by
  induction k with
  | zero => exact fun i h => absurd h (by omega)
  | succ k ih =>
    intro i hi
    rcases line_cost i with ⟨hd, n, hn, h⟩ | ⟨hd, n, hn, h⟩ | ⟨hd, a, r, x, n, h, h2, h3, h4⟩
    · refine ⟨[], i, [], n, by simp only [many0Go, h], rfl, ?_⟩
      simp only [List.length_nil]
      omega
    · refine ⟨[], i, [], n, by simp only [many0Go, h], rfl, ?_⟩
      unfold restCost
      rw [if_neg hd]
      simp only [List.length_nil]
      omega
    · have hl : i.length = a.length + r.length := by rw [h2, List.length_append]
      obtain ⟨b, r', y, m, g1, g2, g3⟩ := ih r (by omega)
      refine ⟨a ++ b, r', x :: y, n + m, ?_, by rw [h2, g2, List.append_assoc], ?_⟩
      · simp only [many0Go, h, g1]
        rw [if_pos (by omega)]
      · rw [List.length_append]
        omega

theorem lines_cost (i : Str) : ∃ a r x n, contentLines i = (.ok r x, n) ∧ i = a ++ r ∧
    n + quotes r ≤ 9 * a.length + quotes i + 10 + restCost r := many_lines _ i (by omega)

/-! ## Components -/

/-- The text begins with one of the opening lines. -/
def Opens (ts : List Str) (i : Str) : Prop := ∃ t ∈ ts, ∃ r, i = t ++ r

/-- A parser of components with these opening lines: it gives up after at most `k` characters if there is none, otherwise it costs at most
13 for each character it consumes, and as many as the text if the last quote is consumed; `s` of them are left over, up to `k`. -/
structure Frames {α : Type} (s k : Nat) (ts : List Str) (p : CP α) : Prop where
  shut : ∀ i, ¬ Opens ts i → ∃ n, n ≤ k ∧ p i = (.err, n)
  ok : ∀ i r x n, p i = (.ok r x, n) → ∃ a, i = a ++ r ∧ 1 ≤ a.length ∧ n + quotes r + s ≤ 13 * a.length + quotes i + k
  other : ∀ i n, Opens ts i → (p i = (.err, n) ∨ p i = (.panic, n)) → n + s ≤ 13 * i.length + quotes i + k

theorem Frames.map {α β : Type} {s k : Nat} {ts : List Str} {p : CP α} (h : Frames s k ts p) (f : α → β) : Frames s k ts (map p f) where
  shut i hi := by
    obtain ⟨n, hn, e⟩ := h.shut i hi
    exact ⟨n, hn, map_err f e⟩
  ok i r x n hp := by
    simp only [Cost.map] at hp
    cases e : p i with
    | mk y m =>
      rw [e] at hp
      cases y with
      | ok r' a => cases hp; exact h.ok i _ _ _ e
      | err => cases hp
      | panic => cases hp
  other i n hi hp := by
    simp only [Cost.map] at hp
    cases e : p i with
    | mk y m =>
      rw [e] at hp
      cases y with
      | ok r' a => rcases hp with hp | hp <;> cases hp
      | err => rcases hp with hp | hp <;> cases hp; exact h.other i _ hi (.inl e)
      | panic => rcases hp with hp | hp <;> cases hp; exact h.other i _ hi (.inr e)

theorem Frames.alt {α : Type} {s k l : Nat} {ts us : List Str} {p q : CP α} (hp : Frames s k ts p) (hq : Frames s l us q)
    (hd : ∀ i, Opens ts i → ¬ Opens us i) : Frames s (k + l) (ts ++ us) (alt p q) := by
  have split (i : Str) (h : Opens (ts ++ us) i) : Opens ts i ∨ Opens us i := by
    obtain ⟨t, ht, hr⟩ := h
    rcases List.mem_append.1 ht with ht | ht
    · exact .inl ⟨t, ht, hr⟩
    · exact .inr ⟨t, ht, hr⟩
  have left (i : Str) (h : Opens ts i) : Opens (ts ++ us) i := by
    obtain ⟨t, ht, hr⟩ := h
    exact ⟨t, List.mem_append_left _ ht, hr⟩
  have right (i : Str) (h : Opens us i) : Opens (ts ++ us) i := by
    obtain ⟨t, ht, hr⟩ := h
    exact ⟨t, List.mem_append_right _ ht, hr⟩
  refine ⟨fun i hi => ?_, fun i r x n h => ?_, fun i n hi h => ?_⟩
  · obtain ⟨n, hn, e⟩ := hp.shut i fun h => hi (left i h)
    obtain ⟨m, hm, e2⟩ := hq.shut i fun h => hi (right i h)
    exact ⟨n + m, by omega, alt_err e e2⟩
  · simp only [Cost.alt] at h
    cases e : p i with
    | mk y m =>
      rw [e] at h
      cases y with
      | ok r' a =>
        cases h
        obtain ⟨a, h1, h2, h3⟩ := hp.ok i _ _ _ e
        exact ⟨a, h1, h2, by omega⟩
      | panic => cases h
      | err =>
        cases e2 : q i with
        | mk z w =>
          simp only [e2] at h
          cases h
          have hno : ¬ Opens ts i := by
            intro ho
            obtain ⟨_, _, e3⟩ := hq.shut i (hd i ho)
            rw [e3] at e2
            cases e2
          obtain ⟨m', hm', e3⟩ := hp.shut i hno
          rw [e3] at e
          cases e
          obtain ⟨a, h1, h2, h3⟩ := hq.ok i _ _ _ e2
          exact ⟨a, h1, h2, by omega⟩
  · simp only [Cost.alt] at h
    by_cases ho : Opens ts i
    · obtain ⟨w, hw, e3⟩ := hq.shut i (hd i ho)
      cases e : p i with
      | mk y m =>
        simp only [e, e3] at h
        cases y with
        | ok r' a => rcases h with h | h <;> cases h
        | err =>
          have := hp.other i m ho (.inl e)
          rcases h with h | h <;> cases h
          omega
        | panic =>
          have := hp.other i m ho (.inr e)
          rcases h with h | h <;> cases h
          omega
    · obtain ⟨w, hw, e3⟩ := hp.shut i ho
      have ho2 := (split i hi).resolve_left ho
      cases e : q i with
      | mk y m =>
        simp only [e, e3] at h
        cases y with
        | ok r' a => rcases h with h | h <;> cases h
        | err =>
          have := hq.other i m ho2 (.inl e)
          rcases h with h | h <;> cases h
          omega
        | panic =>
          have := hq.other i m ho2 (.inr e)
          rcases h with h | h <;> cases h
          omega

theorem many_shut {α : Type} {s k : Nat} {ts : List Str} {p : CP α} (h : Frames s k ts p) {i : Str} (hi : ¬ Opens ts i) :
    ∃ n, n ≤ k ∧ many0 p i = (.ok i [], n) := by
  obtain ⟨n, hn, e⟩ := h.shut i hi
  exact ⟨n, hn, by simp only [many0, many0Go, e]⟩

open Classical in
theorem many_frames {α : Type} {s k : Nat} {ts : List Str} {p : CP α} (h : Frames s k ts p) (hs : k ≤ s) (f : Nat) : ∀ i : Str, i.length < f →
    (∃ a r x n, many0Go p f i = (.ok r x, n) ∧ i = a ++ r ∧
      n + quotes r ≤ 13 * a.length + quotes i + k + (if Opens ts r then 13 * r.length + quotes r else 0)) ∨
    (∃ n, many0Go p f i = (.panic, n) ∧ n ≤ 13 * i.length + quotes i) := by
  induction f with
  | zero => exact fun i h => absurd h (by omega)
  | succ f ih =>
    intro i hi
    by_cases ho : Opens ts i
    · cases e : p i with
      | mk y m =>
        cases y with
        | err =>
          have := h.other i m ho (.inl e)
          refine .inl ⟨[], i, [], m, by simp only [many0Go, e], rfl, ?_⟩
          rw [if_pos ho]
          simp only [List.length_nil]
          omega
        | panic =>
          have := h.other i m ho (.inr e)
          exact .inr ⟨m, by simp only [many0Go, e], by omega⟩
        | ok r x =>
          obtain ⟨a, h1, h2, h3⟩ := h.ok i r x m e
          have hl : i.length = a.length + r.length := by rw [h1, List.length_append]
          rcases ih r (by omega) with ⟨b, r', y, w, g1, g2, g3⟩ | ⟨w, g1, g2⟩
          · refine .inl ⟨a ++ b, r', x :: y, m + w, ?_, by rw [h1, g2, List.append_assoc], ?_⟩
            · simp only [many0Go, e, g1]
              rw [if_pos (by omega)]
            · rw [List.length_append]
              omega
          · refine .inr ⟨m + w, ?_, by omega⟩
            simp only [many0Go, e, g1]
            rw [if_pos (by omega)]
    · obtain ⟨n, hn, e⟩ := h.shut i ho
      refine .inl ⟨[], i, [], n, by simp only [many0Go, e], rfl, ?_⟩
      rw [if_neg ho]
      simp only [List.length_nil]
      omega

open Classical in
/-- What is between the opening and the closing line: the rest counts only if it is not a closing line. -/
structure Body {α : Type} (k : Nat) (p : CP α) : Prop where
  run : ∀ i : Str, (∃ a r x n, p i = (.ok r x, n) ∧ i = a ++ r ∧
      n + quotes r ≤ 13 * a.length + quotes i + k + (if ∃ q, r = c!"END:" ++ q then 0 else 13 * r.length + quotes r + 9)) ∨
    (∃ n, p i = (.panic, n) ∧ n ≤ 13 * i.length + quotes i + k)

theorem lines_body : Body 10 contentLines := by
  refine ⟨fun i => ?_⟩
  obtain ⟨a, r, x, n, h1, h2, h3⟩ := lines_cost i
  refine .inl ⟨a, r, x, n, h1, h2, ?_⟩
  have := rest_le r
  split
  · next he =>
    rw [rest_mark (.inr he)] at h3
    omega
  · omega

/-- The opening lines begin with `BEGIN:`. -/
def Begins (ts : List Str) : Prop := ∀ t ∈ ts, ∃ r, t = c!"BEGIN:" ++ r

theorem opens_begin {ts : List Str} (hb : Begins ts) {i : Str} (h : Opens ts i) : ∃ r, i = c!"BEGIN:" ++ r := by
  obtain ⟨t, ht, r, rfl⟩ := h
  obtain ⟨q, rfl⟩ := hb t ht
  exact ⟨q ++ r, by rw [List.append_assoc]⟩

theorem nested_body {α : Type} {s k : Nat} {ts : List Str} {p : CP α} (h : Frames s k ts p) (hs : k ≤ s) (hb : Begins ts) :
    Body (k + 10) (pair contentLines (many0 p)) := by
  refine ⟨fun i => ?_⟩
  obtain ⟨a, r, x, n, h1, h2, h3⟩ := lines_cost i
  have hl : i.length = a.length + r.length := by rw [h2, List.length_append]
  by_cases hm : Mark r
  · rw [rest_mark hm] at h3
    rcases many_frames h hs (r.length + 1) r (by omega) with ⟨b, r', y, m, g1, g2, g3⟩ | ⟨m, g1, g2⟩
    · refine .inl ⟨a ++ b, r', _, _, pair_ok h1 g1, by rw [h2, g2, List.append_assoc], ?_⟩
      rw [List.length_append]
      split
      · next he =>
        obtain ⟨q, hq⟩ := he
        rw [if_neg fun ho => by
          obtain ⟨w, hw⟩ := opens_begin hb ho
          rw [hq] at hw
          simp at hw] at g3
        omega
      · split at g3 <;> omega
    · exact .inr ⟨_, pair_then_panic h1 g1, by omega⟩
  · have ho : ¬ Opens ts r := fun ho => hm (.inl (opens_begin hb ho))
    obtain ⟨m, hm2, g1⟩ := many_shut h ho
    refine .inl ⟨a, r, _, _, pair_ok h1 g1, h2, ?_⟩
    rw [if_neg fun he => hm (.inr he)]
    have := rest_le r
    omega

/-- A component. -/
theorem frame_cost {α β : Type} {s k : Nat} {t e : Str} {p : CP α} (h : Body k p) (f : α → Res β) (he : ∃ q, e = c!"END:" ++ q)
    (h1 : e.length + k + 9 + s ≤ 12 * t.length) : Frames s t.length [t] (mapRes (delimited (tag t) p (tag e)) f) := by
  have ht : 1 ≤ t.length := by omega
  have key (i : Str) : (∃ a r x n, delimited (tag t) p (tag e) i = (.ok r x, n) ∧ i = a ++ r ∧ 1 ≤ a.length ∧ n + quotes r + s ≤ 13 * a.length + quotes i) ∨
      (∃ n, (delimited (tag t) p (tag e) i = (.err, n) ∨ delimited (tag t) p (tag e) i = (.panic, n)) ∧ n + s ≤ 13 * i.length + quotes i) ∨
      (¬ Opens [t] i ∧ ∃ n, n ≤ t.length ∧ delimited (tag t) p (tag e) i = (.err, n)) := by
    rcases starts_or t i with ⟨j, rfl⟩ | hn
    · obtain ⟨n1, hn1, t1⟩ := tag_ok t j
      have hq := quotes_append t j
      rcases h.run j with ⟨a, r, x, n, g1, g2, g3⟩ | ⟨n, g1, g2⟩
      · have hl : j.length = a.length + r.length := by rw [g2, List.length_append]
        rcases starts_or e r with ⟨r', rfl⟩ | hn
        · obtain ⟨n2, hn2, t2⟩ := tag_ok e r'
          have hq2 := quotes_append e r'
          rw [if_pos (by obtain ⟨q, rfl⟩ := he; exact ⟨q ++ r', by rw [List.append_assoc]⟩)] at g3
          refine .inl ⟨t ++ (a ++ e), r', _, _, map_ok _ (pair_ok t1 (map_ok _ (pair_ok g1 t2))), ?_, ?_, ?_⟩
          · rw [g2]; simp
          · simp only [List.length_append]; omega
          · simp only [List.length_append]; omega
        · obtain ⟨n2, hn2, t2⟩ := tag_err hn
          refine .inr (.inl ⟨_, .inl (map_err _ (pair_then_err t1 (map_err _ (pair_then_err g1 t2)))), ?_⟩)
          rw [List.length_append]
          split at g3 <;> omega
      · refine .inr (.inl ⟨_, .inr (map_panic _ (pair_then_panic t1 (map_panic _ (pair_panic g1)))), ?_⟩)
        rw [List.length_append]
        omega
    · obtain ⟨n1, hn1, t1⟩ := tag_err hn
      refine .inr (.inr ⟨?_, n1, hn1, map_err _ (pair_err t1)⟩)
      rintro ⟨t', ht', r, hr⟩
      rw [List.mem_singleton] at ht'
      subst ht'
      exact hn r hr
  have fok {i r : Str} {x : α} {n : Nat} (h : delimited (tag t) p (tag e) i = (.ok r x, n)) :
      (∃ y, f x = .ok y ∧ mapRes (delimited (tag t) p (tag e)) f i = (.ok r y, n)) ∨ mapRes (delimited (tag t) p (tag e)) f i = (.err, n) ∨
        mapRes (delimited (tag t) p (tag e)) f i = (.panic, n) := by
    simp only [mapRes, h]
    cases hx : f x with
    | ok y => exact .inl ⟨y, rfl, rfl⟩
    | err => exact .inr (.inl rfl)
    | panic => exact .inr (.inr rfl)
  have ferr {i : Str} {n : Nat} (h : delimited (tag t) p (tag e) i = (.err, n)) : mapRes (delimited (tag t) p (tag e)) f i = (.err, n) := by simp only [mapRes, h]
  have fpanic {i : Str} {n : Nat} (h : delimited (tag t) p (tag e) i = (.panic, n)) : mapRes (delimited (tag t) p (tag e)) f i = (.panic, n) := by simp only [mapRes, h]
  refine ⟨fun i hi => ?_, fun i r x n hp => ?_, fun i n hi hp => ?_⟩
  · have hn : ∀ r, i ≠ t ++ r := fun r hr => hi ⟨t, List.mem_singleton.2 rfl, r, hr⟩
    obtain ⟨n1, hn1, t1⟩ := tag_err hn
    exact ⟨n1, hn1, ferr (map_err _ (pair_err t1))⟩
  · rcases key i with ⟨a, r', y, m, g1, g2, g3, g4⟩ | ⟨m, g1 | g1, g2⟩ | ⟨_, m, _, g1⟩
    · rcases fok g1 with ⟨z, _, hz⟩ | hz | hz
      · rw [hz] at hp
        cases hp
        exact ⟨a, g2, g3, by omega⟩
      · rw [hz] at hp; cases hp
      · rw [hz] at hp; cases hp
    · rw [ferr g1] at hp; cases hp
    · rw [fpanic g1] at hp; cases hp
    · rw [ferr g1] at hp; cases hp
  · rcases key i with ⟨a, r', y, m, g1, g2, g3, g4⟩ | ⟨m, g1 | g1, g2⟩ | ⟨ho, _⟩
    · have hl : i.length = a.length + r'.length := by rw [g2, List.length_append]
      rcases fok g1 with ⟨z, _, hz⟩ | hz | hz
      · rw [hz] at hp
        rcases hp with hp | hp <;> cases hp
      · rw [hz] at hp
        rcases hp with hp | hp <;> cases hp
        omega
      · rw [hz] at hp
        rcases hp with hp | hp <;> cases hp
        omega
    · rw [ferr g1] at hp
      rcases hp with hp | hp <;> cases hp
      omega
    · rw [fpanic g1] at hp
      rcases hp with hp | hp <;> cases hp
      omega
    · exact absurd hi ho

section
variable [Platform]

theorem simple_frame {α : Type} (name : Str) (conv : List ContentLine → Res α) (h : 5 ≤ name.length) :
    Frames 102 (c!"BEGIN:" ++ name ++ c!"\r\n").length [c!"BEGIN:" ++ name ++ c!"\r\n"] (componentP name conv) :=
  frame_cost lines_body conv ⟨name ++ c!"\r\n", rfl⟩ (by simp only [List.length_append, List.length_cons, List.length_nil]; omega)

theorem valarm_frame : Frames 102 14 [c!"BEGIN:VALARM\r\n"] valarm := simple_frame c!"VALARM" _ (by decide)
theorem vfreebusy_frame : Frames 102 17 [c!"BEGIN:VFREEBUSY\r\n"] vfreebusy := simple_frame c!"VFREEBUSY" _ (by decide)
theorem vtodo_frame : Frames 102 13 [c!"BEGIN:VTODO\r\n"] vtodo := simple_frame c!"VTODO" _ (by decide)
theorem vjournal_frame : Frames 102 16 [c!"BEGIN:VJOURNAL\r\n"] vjournal := simple_frame c!"VJOURNAL" _ (by decide)
theorem standard_frame : Frames 102 16 [c!"BEGIN:STANDARD\r\n"] standard := simple_frame c!"STANDARD" _ (by decide)
theorem daylight_frame : Frames 102 16 [c!"BEGIN:DAYLIGHT\r\n"] daylight := simple_frame c!"DAYLIGHT" _ (by decide)

theorem begins_of (ns : List Str) : Begins (ns.map fun n => c!"BEGIN:" ++ n) := by
  intro t ht
  obtain ⟨n, -, rfl⟩ := List.mem_map.1 ht
  exact ⟨n, rfl⟩

theorem vevent_frame : Frames 102 14 [c!"BEGIN:VEVENT\r\n"] vevent :=
  frame_cost (s := 102) (t := c!"BEGIN:VEVENT\r\n") (nested_body valarm_frame (by omega) (begins_of [c!"VALARM\r\n"])) _ ⟨c!"VEVENT\r\n", rfl⟩ (by decide)

/-- Texts that differ before the end of the shorter cannot both begin the same text. -/
theorem opens_disjoint {ts us : List Str} (h : ∀ t ∈ ts, ∀ u ∈ us, ∃ k, k < t.length ∧ k < u.length ∧ t[k]? ≠ u[k]?) (i : Str) (ht : Opens ts i) :
    ¬ Opens us i := by
  rintro ⟨u, hu, r, rfl⟩
  obtain ⟨t, ht, r', hr⟩ := ht
  obtain ⟨k, h1, h2, h3⟩ := h t ht u hu
  apply h3
  rw [← List.getElem?_append_left (l₂ := r') h1, ← hr, List.getElem?_append_left h2]

theorem vtimezone_frame : Frames 102 17 [c!"BEGIN:VTIMEZONE\r\n"] vtimezone :=
  frame_cost (s := 102) (t := c!"BEGIN:VTIMEZONE\r\n") (nested_body ((standard_frame.map _).alt (daylight_frame.map _) (opens_disjoint (by
    simp only [List.mem_singleton, forall_eq]
    exact ⟨6, by decide, by decide, by decide⟩))) (by omega) (begins_of [c!"STANDARD\r\n", c!"DAYLIGHT\r\n"])) _ ⟨c!"VTIMEZONE\r\n", rfl⟩ (by decide)

theorem component_frame : Frames 102 (14 + (14 + (17 + (16 + (17 + 13)))))
    ([c!"BEGIN:VALARM\r\n"] ++ ([c!"BEGIN:VEVENT\r\n"] ++ ([c!"BEGIN:VFREEBUSY\r\n"] ++ ([c!"BEGIN:VJOURNAL\r\n"] ++ ([c!"BEGIN:VTIMEZONE\r\n"] ++ [c!"BEGIN:VTODO\r\n"])))))
    component := by
  refine (valarm_frame.map _).alt ((vevent_frame.map _).alt ((vfreebusy_frame.map _).alt ((vjournal_frame.map _).alt ((vtimezone_frame.map _).alt (vtodo_frame.map _)
    ?_) ?_) ?_) ?_) ?_ <;> refine opens_disjoint ?_ <;> simp only [List.mem_append, List.mem_singleton, forall_eq, forall_eq_or_imp]
  · exact ⟨8, by decide, by decide, by decide⟩
  · exact ⟨⟨7, by decide, by decide, by decide⟩, ⟨7, by decide, by decide, by decide⟩⟩
  · exact ⟨⟨7, by decide, by decide, by decide⟩, ⟨7, by decide, by decide, by decide⟩, ⟨7, by decide, by decide, by decide⟩⟩
  · exact ⟨⟨7, by decide, by decide, by decide⟩, ⟨7, by decide, by decide, by decide⟩, ⟨7, by decide, by decide, by decide⟩, ⟨7, by decide, by decide, by decide⟩⟩
  · exact ⟨⟨7, by decide, by decide, by decide⟩, ⟨7, by decide, by decide, by decide⟩, ⟨7, by decide, by decide, by decide⟩, ⟨7, by decide, by decide, by decide⟩,
      ⟨7, by decide, by decide, by decide⟩⟩

theorem vcalendar_frame : Frames 0 17 [c!"BEGIN:VCALENDAR\r\n"] vcalendar :=
  frame_cost (s := 0) (t := c!"BEGIN:VCALENDAR\r\n") (nested_body component_frame (by decide)
    (begins_of [c!"VALARM\r\n", c!"VEVENT\r\n", c!"VFREEBUSY\r\n", c!"VJOURNAL\r\n", c!"VTIMEZONE\r\n", c!"VTODO\r\n"])) _ ⟨c!"VCALENDAR", rfl⟩ (by decide)

end

/-- A parser of components looks at most 14 times at each character, and at most 17 times more. -/
theorem Frames.bound {α : Type} {s k : Nat} {ts : List Str} {p : CP α} (h : Frames s k ts p) (i : Str) (hk : k ≤ 17) : (p i).2 ≤ 14 * i.length + 17 := by
  have hq := quotes_le i
  by_cases ho : Opens ts i
  · cases e : p i with
    | mk y m =>
      cases y with
      | ok r x =>
        obtain ⟨a, h1, h2, h3⟩ := h.ok i r x m e
        have hl : i.length = a.length + r.length := by rw [h1, List.length_append]
        show m ≤ _
        omega
      | err =>
        have := h.other i m ho (.inl e)
        show m ≤ _
        omega
      | panic =>
        have := h.other i m ho (.inr e)
        show m ≤ _
        omega
  · obtain ⟨n, hn, e⟩ := h.shut i ho
    rw [e]
    show n ≤ _
    omega

theorem unfold_length (s : Str) : (unfold s).length ≤ s.length := by
  fun_induction unfold s <;> simp_all <;> omega

/-! ## Every character consumed has been looked at -/

/-- A success has looked at every character it has consumed. -/
def Honest {α : Type} (p : CP α) : Prop := ∀ i r x n, p i = (.ok r x, n) → i.length ≤ n + r.length

section
variable {α β γ : Type} {p : CP α} {q : CP β} {s : CP γ}

theorem compared_strip {t i r : Str} (h : stripPrefix t i = some r) : compared t i = t.length := by
  induction t generalizing i with
  | nil => cases i <;> simp [compared]
  | cons a t ih =>
    cases i with
    | nil => simp [stripPrefix] at h
    | cons c i =>
      simp only [stripPrefix] at h
      split at h
      · next e =>
        simp only [compared, List.length_cons, ih h]
        rw [if_pos (by simpa using e)]
        omega
      · cases h

theorem tag_honest (t : Str) : Honest (tag t) := by
  intro i r x n h
  simp only [tag, Nom.tag] at h
  cases hs : stripPrefix t i with
  | none => simp [hs] at h
  | some r' =>
    rw [hs, compared_strip hs] at h
    cases h
    rw [strip_some hs, List.length_append]
    omega

theorem takeWhile_honest (f : Char → Bool) : Honest (takeWhile f) := by
  intro i r x n h
  cases h
  have := taken_length f i
  omega

theorem takeTill_honest (f : Char → Bool) : Honest (takeTill f) := takeWhile_honest _

theorem char_honest (c : Char) : Honest (char c) := by
  intro i r x n h
  cases i with
  | nil => cases h
  | cons d i =>
    simp only [char, Nom.char] at h
    split at h
    · cases h
      simp only [List.length_cons]
      omega
    · cases h

theorem lineEnding_honest : Honest lineEnding := by
  intro i r x n h
  unfold lineEnding Nom.lineEnding at h
  split at h
  · cases h
    simp [compared]
    omega
  · cases h
    simp [compared]
    omega
  · cases h

theorem map_honest (h : Honest p) (f : α → β) : Honest (map p f) := by
  intro i r x n e
  simp only [map] at e
  cases e1 : p i with
  | mk y m =>
    rw [e1] at e
    cases y with
    | ok r' a => cases e; exact h _ _ _ _ e1
    | err => cases e
    | panic => cases e

theorem mapRes_honest (h : Honest p) (f : α → Res β) : Honest (mapRes p f) := by
  intro i r x n e
  simp only [mapRes] at e
  cases e1 : p i with
  | mk y m =>
    rw [e1] at e
    cases y with
    | ok r' a =>
      simp only [] at e
      cases hf : f a with
      | ok b => rw [hf] at e; cases e; exact h _ _ _ _ e1
      | err => rw [hf] at e; cases e
      | panic => rw [hf] at e; cases e
    | err => cases e
    | panic => cases e

theorem not_honest : Honest (not p) := by
  intro i r x n e
  simp only [not] at e
  cases e1 : p i with
  | mk y m =>
    rw [e1] at e
    cases y with
    | ok r' a => cases e
    | err => cases e; omega
    | panic => cases e

theorem opt_honest (h : Honest p) : Honest (opt p) := by
  intro i r x n e
  simp only [opt] at e
  cases e1 : p i with
  | mk y m =>
    rw [e1] at e
    cases y with
    | ok r' a => cases e; exact h _ _ _ _ e1
    | err => cases e; omega
    | panic => cases e

theorem pair_honest (h : Honest p) (h2 : Honest q) : Honest (pair p q) := by
  intro i r x n e
  simp only [pair] at e
  cases e1 : p i with
  | mk y m =>
    rw [e1] at e
    cases y with
    | ok r' a =>
      simp only [] at e
      cases e2 : q r' with
      | mk z w =>
        rw [e2] at e
        cases z with
        | ok r2 b =>
          cases e
          have := h _ _ _ _ e1
          have := h2 _ _ _ _ e2
          omega
        | err => cases e
        | panic => cases e
    | err => cases e
    | panic => cases e

theorem preceded_honest (h : Honest p) (h2 : Honest q) : Honest (preceded p q) := map_honest (pair_honest h h2) _
theorem terminated_honest (h : Honest p) (h2 : Honest q) : Honest (terminated p q) := map_honest (pair_honest h h2) _
theorem delimited_honest (h : Honest p) (h2 : Honest q) (h3 : Honest s) : Honest (delimited p q s) := preceded_honest h (terminated_honest h2 h3)
theorem separatedPair_honest (h : Honest p) (h2 : Honest q) (h3 : Honest s) : Honest (separatedPair p q s) := pair_honest h (preceded_honest h2 h3)

theorem alt_honest {p2 : CP α} (h : Honest p) (h2 : Honest p2) : Honest (alt p p2) := by
  intro i r x n e
  simp only [alt] at e
  cases e1 : p i with
  | mk y m =>
    rw [e1] at e
    cases y with
    | ok r' a => cases e; exact h _ _ _ _ e1
    | err =>
      cases e2 : p2 i with
      | mk z w =>
        simp only [e2] at e
        cases e
        have := h2 _ _ _ _ e2
        omega
    | panic => cases e

theorem many0_honest (h : Honest p) : Honest (many0 p) := by
  have go (k : Nat) : Honest (many0Go p k) := by
    induction k with
    | zero => intro i r x n e; cases e
    | succ k ih =>
      intro i r x n e
      simp only [many0Go] at e
      cases e1 : p i with
      | mk y m =>
        rw [e1] at e
        cases y with
        | ok r' a =>
          simp only [] at e
          split at e
          · cases e2 : many0Go p k r' with
            | mk z w =>
              rw [e2] at e
              cases z with
              | ok r2 b =>
                cases e
                have := h _ _ _ _ e1
                have := ih _ _ _ _ e2
                omega
              | err => cases e
              | panic => cases e
          · cases e
        | err => cases e; omega
        | panic => cases e
  exact fun i => go _ i

end

theorem param_honest : Honest param :=
  alt_honest (delimited_honest (char_honest _) (separatedPair_honest (takeWhile_honest _) (tag_honest _) (takeTill_honest _)) (char_honest _))
    (preceded_honest (char_honest _) (separatedPair_honest (takeWhile_honest _) (char_honest _)
      (preceded_honest (opt_honest (tag_honest _)) (takeTill_honest _))))

theorem contentLine_honest : Honest contentLine :=
  map_honest (pair_honest not_honest (pair_honest not_honest (pair_honest (takeWhile_honest _)
    (pair_honest (map_honest (many0_honest param_honest) _) (pair_honest (char_honest _) (pair_honest (opt_honest (takeTill_honest _)) lineEnding_honest)))))) _

theorem contentLines_honest : Honest contentLines := many0_honest contentLine_honest

theorem componentP_honest {α : Type} (name : Str) (conv : List ContentLine → Res α) : Honest (componentP name conv) :=
  mapRes_honest (delimited_honest (tag_honest _) contentLines_honest (tag_honest _)) _

section
variable [Platform]

theorem vevent_honest : Honest vevent :=
  mapRes_honest (delimited_honest (tag_honest _) (pair_honest contentLines_honest (many0_honest (componentP_honest _ _))) (tag_honest _)) _

theorem vtimezone_honest : Honest vtimezone :=
  mapRes_honest (delimited_honest (tag_honest _) (pair_honest contentLines_honest
    (many0_honest (alt_honest (map_honest (componentP_honest _ _) _) (map_honest (componentP_honest _ _) _)))) (tag_honest _)) _

theorem component_honest : Honest component :=
  alt_honest (map_honest (componentP_honest _ _) _) (alt_honest (map_honest vevent_honest _) (alt_honest (map_honest (componentP_honest _ _) _)
    (alt_honest (map_honest (componentP_honest _ _) _) (alt_honest (map_honest vtimezone_honest _) (map_honest (componentP_honest _ _) _)))))

theorem vcalendar_honest : Honest vcalendar :=
  mapRes_honest (delimited_honest (tag_honest _) (pair_honest contentLines_honest (many0_honest component_honest)) (tag_honest _)) _

end

end Ikal.Cost
