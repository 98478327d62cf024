import Verif.Spec.Tidy
import Verif.Props.RoundTrip

/-!
# Tidy components: their lines, and what these are read as
-/

namespace Ikal

open Nom Spec

set_option linter.unusedSectionVars false
set_option linter.unusedSimpArgs false

/-! ## Fields -/

/-- No quotes. -/
def QuoteFree (m : SMap Str) : Prop := ∀ p ∈ m, '"' ∉ p.2

/-- Lines without quotes in parameters. -/
def Quiet (ls : List ContentLine) : Prop := ∀ l ∈ ls, QuoteFree l.params

theorem Quiet.nil : Quiet [] := by simp [Quiet]
theorem Quiet.append {a b : List ContentLine} (ha : Quiet a) (hb : Quiet b) : Quiet (a ++ b) := by
  intro l hl
  rcases List.mem_append.1 hl with h | h
  · exact ha l h
  · exact hb l h
theorem quoteFree_nil : QuoteFree [] := by simp [QuoteFree]
theorem quiet_lineOf {n s : Str} {m : SMap Str} (h : QuoteFree m) : Quiet (lineOf n m s) := by
  intro l hl
  unfold lineOf at hl
  split at hl
  · cases hl
  · simp at hl; subst hl; exact h

namespace Field

theorem tidy_req {n : Str} {α : Type} {s : Ser α} {p : ContentLine → Res α} {v : α} (h : ∃ m t, WrittenAs v m t ∧ QuoteFree m) :
    ∃ l, (Field.req n α s p).Written v l ∧ Quiet l := by
  obtain ⟨m, t, h, h'⟩ := h
  exact ⟨_, ⟨m, t, h, rfl⟩, quiet_lineOf h'⟩

theorem tidy_opt {n : Str} {α : Type} {s : Ser α} {p : ContentLine → Res α} {v : Option α} (h : ∀ a ∈ v, ∃ m t, WrittenAs a m t ∧ QuoteFree m) :
    ∃ l, (Field.opt n α s p).Written v l ∧ Quiet l := by
  cases v with
  | none => exact ⟨[], rfl, .nil⟩
  | some a =>
    obtain ⟨m, t, h, h'⟩ := h a rfl
    exact ⟨_, ⟨m, t, h, rfl⟩, quiet_lineOf h'⟩

theorem tidy_list {n : Str} {α : Type} {s : Ser α} {v : List α} (h : ∀ a ∈ v, ∃ m t, WrittenAs a m t ∧ QuoteFree m) :
    ∃ l, ListWritten n v l ∧ Quiet l := by
  match v, h with
  | [], _ => exact ⟨[], rfl, .nil⟩
  | [a], h =>
    obtain ⟨m, t, h, h'⟩ := h a (by simp)
    exact ⟨_, ⟨m, t, h, rfl⟩, quiet_lineOf h'⟩
  | a :: b :: v, h =>
    have : ∀ {w : List α}, (∀ a ∈ w, ∃ m t, WrittenAs a m t ∧ QuoteFree m) → ∃ ss : List Str, All2 (fun x s => Ser.ical x = .ok s ∧ Clean s) w ss := by
      intro w hw
      induction w with
      | nil => exact ⟨[], .nil⟩
      | cons a w ih =>
        obtain ⟨m, t, h, _⟩ := hw a (by simp)
        obtain ⟨ss, hs⟩ := ih fun b hb => hw b (by simp [hb])
        exact ⟨t :: ss, .cons ⟨h.ical, h.clean⟩ hs⟩
    obtain ⟨ss, hs⟩ := this h
    exact ⟨_, ⟨ss, hs, rfl⟩, quiet_lineOf quoteFree_nil⟩

theorem tidy_push {n : Str} {α : Type} {s : Ser α} {p : ContentLine → Res α} {v : List α} (h : ∀ a ∈ v, ∃ m t, WrittenAs a m t ∧ QuoteFree m) :
    ∃ l, (Field.push n α s p).Written v l ∧ Quiet l := tidy_list h
theorem tidy_append {n : Str} {α : Type} {s : Ser α} {p : ContentLine → Res (List α)} {v : List α}
    (h : ∀ a ∈ v, ∃ m t, WrittenAs a m t ∧ QuoteFree m) : ∃ l, (Field.append n α s p).Written v l ∧ Quiet l := tidy_list h
theorem tidy_nested {n : Str} {α : Type} {s : Ser α} : ∃ l, (Field.nested n α s).Written ([] : List α) l ∧ Quiet l := ⟨[], ⟨rfl, rfl⟩, .nil⟩

end Field

namespace Slots

theorem tidy_nil {v : Slots []} : ∃ ls, Written [] v ls ∧ Quiet ls := ⟨[], rfl, .nil⟩
theorem tidy_cons {f : Field} {fs : List Field} {v : f.T} {vs : Slots fs} (h : ∃ l, f.Written v l ∧ Quiet l)
    (h' : ∃ ls, Written fs vs ls ∧ Quiet ls) : ∃ ls, Written (f :: fs) (v, vs) ls ∧ Quiet ls := by
  obtain ⟨l, h, q⟩ := h
  obtain ⟨l', h', q'⟩ := h'
  exact ⟨_, ⟨l, l', h, h', rfl⟩, q.append q'⟩

/-- Each value of `w` is what the lines of the value of `v` are read as. -/
def LivesAll : (fs : List Field) → Slots fs → Slots fs → Prop
  | [], _, _ => True
  | f :: fs, (v, vs), (w, ws) => f.Lives v w ∧ LivesAll fs vs ws

theorem holds_post {fs : List Field} {v : Slots fs} {post ls : List ContentLine} (hp : ∀ l ∈ post, l.key ∉ fs.map Field.name) :
    Holds fs (ls ++ post) v ↔ Holds fs ls v := by
  induction fs with
  | nil => exact Iff.rfl
  | cons f fs ih =>
    obtain ⟨v, vs⟩ := v
    simp only [Holds]
    rw [ih fun l hl hm => hp l hl (List.mem_cons_of_mem _ hm), Field.Holds.congr (ls := ls ++ post) (ls' := ls)]
    intro _
    rw [named_append, named_eq_nil (a := post) fun l hl e => hp l hl (by simp [e])]
    simp

theorem livesAll_of_holds {fs : List Field} (hd : (fs.map Field.name).Nodup) {v w : Slots fs} {ls : List ContentLine}
    (h : Written fs v ls) (hw : Holds fs ls w) : LivesAll fs v w := by
  induction fs generalizing ls with
  | nil => trivial
  | cons f fs ih =>
    obtain ⟨v, vs⟩ := v
    obtain ⟨w, ws⟩ := w
    obtain ⟨l, l', h1, h2, rfl⟩ := h
    simp only [List.map_cons, List.nodup_cons] at hd
    obtain ⟨hw1, hw2⟩ := hw
    refine ⟨⟨l, h1, ?_⟩, ih hd.2 h2 ?_⟩
    · rw [Field.Holds.congr (ls' := l)] at hw1
      · exact hw1
      · intro _
        rw [named_append, named_eq_nil (a := l'), List.append_nil]
        intro x hx e
        exact hd.1 (e ▸ h2.keys x hx)
    · refine (holds_mid ?_).1 hw2
      intro x hx hm
      rw [h1.keys x hx] at hm
      exact hd.1 hm

end Slots

/-! ## Extension properties -/

theorem clean_ext {m : SMap ContentLine} (h : TidyExt m) : ∃ s, SMap.ical m = .ok s ∧ Clean s := by
  have : ∃ ss, Res.mapM' (fun (p : Str × ContentLine) => (Ser.ical p.2).map fun s => p.1 ++ '=' :: s) m = .ok ss ∧ ∀ s ∈ ss, Clean s := by
    refine ⟨m.map fun p => p.1 ++ '=' :: escape p.2.value, mapM'_ok (fun _ _ => rfl), ?_⟩
    intro s hs
    obtain ⟨p, hp, rfl⟩ := List.mem_map.1 hs
    obtain ⟨h1, h2, h3⟩ := h p hp
    exact (Clean.mk h1 h2).append (.cons (by decide) (clean_escape h3))
  obtain ⟨ss, h1, h2⟩ := this
  refine ⟨join [';'] ss, ?_, Clean.join (by intro c hc; simp at hc; rw [hc]; decide) h2⟩
  unfold SMap.ical
  rw [h1]
  rfl

theorem written_ext {m : SMap ContentLine} {s : Str} (h : SMap.ical m = .ok s) (hs : Clean s) : @WrittenAs _ Comp.extSer m [] s :=
  @WrittenAs.mk _ Comp.extSer _ _ _ h hs rfl safeParams_nil

theorem ext_ne {m : SMap ContentLine} {s : Str} (h : SMap.ical m = .ok s) (hm : m ≠ []) : s ≠ [] := by
  unfold SMap.ical at h
  have e : Res.mapM' (fun (p : Str × ContentLine) => (Ser.ical p.2).map fun s => p.1 ++ '=' :: s) m =
      .ok (m.map fun p => p.1 ++ '=' :: escape p.2.value) := mapM'_ok (fun _ _ => rfl)
  rw [e] at h
  cases h
  cases m with
  | nil => exact absurd rfl hm
  | cons p m =>
    cases m <;> simp [join]

theorem ext_nil {s : Str} (h : SMap.ical ([] : SMap ContentLine) = .ok s) : s = [] := by
  cases h; rfl

/-- What extension properties are read back as: a single one, of the name of the field. -/
def extBack (n : Str) (m : SMap ContentLine) (s : Str) : SMap ContentLine := if m = [] then [] else [(n, ⟨n, [], s⟩)]

/-! ## Components -/

/-- The text of a component is its opening, its property lines and its closing. -/
theorem Comp.written_tidy {fs : List Field} (hf : fs.all Field.plain = true) {name : Str} (hn : IsName name) {c : Comp fs} {sx si : Str}
    (hx : SMap.ical c.xProp = .ok sx) (hcx : Clean sx) (hi : SMap.ical c.ianaProp = .ok si) (hci : Clean si)
    {ls : List ContentLine} (hw : Slots.Written fs c.slots ls) {t : Str}
    (h : c.ical name = .ok t) :
    ∃ u, Piece t u ∧ ∀ r, LeafText name (u ++ r) (ls ++ (lineOf c!"X-PROP" [] sx ++ lineOf c!"IANA-PROP" [] si)) r := by
  obtain ⟨body, x, i, hb, hx', hi', rfl⟩ := Comp.framed h
  obtain ⟨u, hu, hwr⟩ := hw.ser hf hb
  obtain ⟨ux, hux, hwx⟩ := @field_written _ Comp.extSer rfl c!"X-PROP" c.xProp [] sx x ⟨isName_lit (by decide), by decide, by decide⟩ (by decide) (written_ext hx hcx) hx'
  obtain ⟨ui, hui, hwi⟩ := @field_written _ Comp.extSer rfl c!"IANA-PROP" c.ianaProp [] si i ⟨isName_lit (by decide), by decide, by decide⟩ (by decide) (written_ext hi hci) hi'
  have hp := ((piece_frame (.inl rfl) hn).append ((hu.append hux).append hui)).append (piece_frame (.inr rfl) hn)
  refine ⟨_, hp, fun r => ?_⟩
  refine ⟨u ++ ux ++ ui ++ (c!"END:" ++ name ++ c!"\r\n" ++ r), by simp [List.append_assoc], ?_⟩
  rw [← List.append_assoc ls]
  exact ((hwr.append hwx).append hwi).stop (rest := c!"END:" ++ name ++ c!"\r\n" ++ r) (.inr ⟨name ++ c!"\r\n" ++ r, by simp⟩)

theorem lastNamed_append (n : Str) (a b : List ContentLine) : lastNamed n (a ++ b) = (lastNamed n b).or (lastNamed n a) := by
  unfold lastNamed
  rw [Slots.named_append, List.getLast?_append]

theorem lastNamed_lineOf (k n s : Str) : lastNamed k (lineOf n [] s) = if k = n ∧ s ≠ [] then some ⟨n, [], s⟩ else none := by
  unfold lineOf lastNamed named
  by_cases hs : s = []
  · simp [hs]
  · by_cases hk : k = n
    · simp [hs, hk]
    · have : ¬ n = k := fun e => hk e.symm
      simp [hs, hk, this]

theorem lineOf_ext {m : SMap ContentLine} {s : Str} (h : SMap.ical m = .ok s) : s ≠ [] ↔ m ≠ [] :=
  ⟨fun hs hm => hs (by subst hm; exact ext_nil h), ext_ne h⟩

theorem isExt_back {known : List Str} {sel : Str → Prop} {ls : List ContentLine} (hk : ∀ l ∈ ls, l.key ∈ known) {n n' s s' : Str}
    (hn : n ∉ known) (hs : sel n) (hs' : ¬ sel n') {m m' : SMap ContentLine} (hm : SMap.ical m = .ok s)
    (post : List ContentLine) (hpost : ∀ k, lastNamed k post = if k = n ∧ s ≠ [] then some ⟨n, [], s⟩ else if k = n' ∧ s' ≠ [] then some ⟨n', [], s'⟩ else none)
    (h : IsExt known sel (ls ++ post) m') : m' = extBack n m s := by
  obtain ⟨h1, h2, h3⟩ := h
  have hle := lineOf_ext hm
  refine SMap.ext h1 ?_ fun k => ?_
  · unfold extBack
    split
    · exact SMap.wf_nil
    · simp [SMap.Wf]
  · have hback : SMap.get? (extBack n m s) k = if k = n ∧ s ≠ [] then some ⟨n, [], s⟩ else none := by
      unfold extBack
      by_cases hm' : m = []
      · simp [hm', hle]
      · by_cases hkn : k = n
        · simp [hm', hkn, hle, SMap.get?]
        · simp [hm', hkn, SMap.get?]
    rw [hback]
    by_cases hkk : k ∈ known ∨ ¬ sel k
    · rw [h3 k hkk, if_neg]
      rintro ⟨rfl, _⟩
      rcases hkk with hkk | hkk
      · exact hn hkk
      · exact hkk hs
    · have hk1 : k ∉ known := fun x => hkk (.inl x)
      have hk2 : sel k := Classical.byContradiction fun x => hkk (.inr x)
      rw [h2 k hk1 hk2, lastNamed_append, hpost]
      have : lastNamed k ls = none := by
        rw [lastNamed, Slots.named_eq_nil]
        · rfl
        · intro l hl e
          exact hk1 (e ▸ hk l hl)
      rw [this]
      by_cases h5 : k = n ∧ s ≠ []
      · simp [h5]
      · rw [if_neg h5, if_neg]
        · simp [h5]
        · rintro ⟨rfl, _⟩
          exact hs' hk2

/-- What the lines of a component are read as. -/
theorem Comp.tryFrom_tidy {fs : List Field} (hd : (fs.map Field.name).Nodup) (hxn : c!"X-PROP" ∉ fs.map Field.name)
    (hin : c!"IANA-PROP" ∉ fs.map Field.name) {v : Comp fs} {sx si : Str}
    (hx : SMap.ical v.xProp = .ok sx) (hi : SMap.ical v.ianaProp = .ok si)
    {ls : List ContentLine} (hw : Slots.Written fs v.slots ls) {w : Comp fs}
    (h : Comp.tryFrom fs (ls ++ (lineOf c!"X-PROP" [] sx ++ lineOf c!"IANA-PROP" [] si)) = .ok w) :
    Slots.LivesAll fs v.slots w.slots ∧ w.xProp = extBack c!"X-PROP" v.xProp sx ∧ w.ianaProp = extBack c!"IANA-PROP" v.ianaProp si := by
  obtain ⟨h1, h2, h3⟩ := (Comp.tryFrom_ok (knownNames_nodup hd) _ _).1 h
  have hsub : ∀ k, k ∈ knownNames fs → k ∈ fs.map Field.name := by
    intro k hk
    obtain ⟨f, hf, rfl⟩ := List.mem_map.1 hk
    exact List.mem_map.2 ⟨f, (List.mem_filter.1 hf).1, rfl⟩
  refine ⟨Slots.livesAll_of_holds hd hw ((Slots.holds_post ?_).1 h1), ?_, ?_⟩
  · intro l hl
    rcases List.mem_append.1 hl with hl | hl
    · rw [lineOf_key l hl]; exact hxn
    · rw [lineOf_key l hl]; exact hin
  · refine isExt_back (n' := c!"IANA-PROP") (s' := si) hw.known (fun hk => hxn (hsub _ hk)) ⟨c!"PROP", rfl⟩ (by unfold IsX; decide) hx _ (fun k => ?_) h2
    rw [lastNamed_append, lastNamed_lineOf, lastNamed_lineOf]
    by_cases hk : k = c!"X-PROP"
    · subst hk; simp
    · by_cases hk' : k = c!"IANA-PROP"
      · subst hk'; simp
      · simp [hk, hk']
  · refine isExt_back (n' := c!"X-PROP") (s' := sx) hw.known (fun hk => hin (hsub _ hk)) (by unfold IsX; decide) (fun hn => hn ⟨c!"PROP", rfl⟩) hi _ (fun k => ?_) h3
    rw [lastNamed_append, lastNamed_lineOf, lastNamed_lineOf]
    by_cases hk : k = c!"X-PROP"
    · subst hk; simp
    · by_cases hk' : k = c!"IANA-PROP"
      · subst hk'; simp
      · simp [hk, hk']

/-- No extension properties are read back as what they were. -/
theorem extBack_ne {n : Str} {m : SMap ContentLine} {s : Str} (h : SMap.ical m = .ok s) (hm : m ≠ []) : extBack n m s ≠ m := by
  intro e
  rw [extBack, if_neg hm] at e
  subst e
  have : SMap.ical ([(n, ⟨n, [], s⟩)] : SMap ContentLine) = .ok (n ++ '=' :: escape s) := rfl
  rw [this] at h
  have h := Res.ok.inj h
  have hl := congrArg List.length h
  have he : s.length ≤ (escape s).length := by
    unfold escape
    have hr : ∀ (c : Char) (b : Str), b ≠ [] → ∀ s : Str, s.length ≤ (replaceChar c b s).length := by
      intro c b hb s
      induction s with
      | nil => simp
      | cons x s ih =>
        have : replaceChar c b (x :: s) = (if x = c then b else [x]) ++ replaceChar c b s := rfl
        rw [this, List.length_append, List.length_cons]
        have : 0 < (if x = c then b else [x]).length := by
          split
          · exact List.length_pos_iff.2 hb
          · simp
        omega
    exact Nat.le_trans (Nat.le_trans (hr ';' _ (by simp) s) (hr ',' _ (by simp) _)) (hr '\n' _ (by simp) _)
  simp at hl
  omega

section Main

variable [Platform]

theorem tidy_text {t : Text} (h : TidyText t) : ∃ m s, WrittenAs t m s ∧ QuoteFree m := ⟨_, _, written_text h.1 h.2.1, h.2.2⟩
theorem tidy_uri {t : Uri} (h : TidyUri t) : ∃ m s, WrittenAs t m s ∧ QuoteFree m := ⟨_, _, written_uri h.1 h.2.1, h.2.2⟩
theorem tidy_class {c : Class} (h : TidyClass c) : ∃ m s, WrittenAs c m s ∧ QuoteFree m := by
  have : Clean c.toStr := by
    cases c with
    | custom s => exact .mk (h s rfl).1 (h s rfl).2
    | pub => show ∀ c ∈ c!"PUBLIC", c ≠ '\n' ∧ c ≠ '\r'; decide
    | priv => show ∀ c ∈ c!"PRIVATE", c ≠ '\n' ∧ c ≠ '\r'; decide
    | confidential => show ∀ c ∈ c!"CONFIDENTIAL", c ≠ '\n' ∧ c ≠ '\r'; decide
  exact ⟨_, _, written_class this.lf this.cr, quoteFree_nil⟩
theorem tidy_geo {g : Geo} (h : TidyGeo g) : ∃ m s, WrittenAs g m s ∧ QuoteFree m := by
  have : Clean g.toStr := (Clean.mk h.1.1 h.1.2).append (.cons (by decide) (.mk h.2.1 h.2.2))
  exact ⟨_, _, written_geo this.lf this.cr, quoteFree_nil⟩
theorem tidy_rstatus {r : RequestStatus} (h : TidyRequestStatus r) : ∃ m s, WrittenAs r m s ∧ QuoteFree m :=
  ⟨_, _, written_rstatus (.mk h.1.1 h.1.2) h.2.1 h.2.2, quoteFree_nil⟩

theorem tidy_dateTime (a : DateTime) : ∃ m s, WrittenAs a m s ∧ QuoteFree m := ⟨_, _, written_dateTime a, quoteFree_nil⟩
theorem tidy_delta (a : TimeDelta) : ∃ m s, WrittenAs a m s ∧ QuoteFree m := ⟨_, _, written_delta a, quoteFree_nil⟩
theorem tidy_offset (a : FixedOffset) : ∃ m s, WrittenAs a m s ∧ QuoteFree m := ⟨_, _, written_offset a, quoteFree_nil⟩
theorem tidy_nat (a : Nat) : ∃ m s, WrittenAs a m s ∧ QuoteFree m := ⟨_, _, written_nat a, quoteFree_nil⟩
theorem tidy_status (a : Status) : ∃ m s, WrittenAs a m s ∧ QuoteFree m := ⟨_, _, written_status a, quoteFree_nil⟩
theorem tidy_transp (a : TimeTransparency) : ∃ m s, WrittenAs a m s ∧ QuoteFree m := ⟨_, _, written_transp a, quoteFree_nil⟩
theorem tidy_rule (a : Recur) : ∃ m s, WrittenAs a m s ∧ QuoteFree m := ⟨_, _, written_rule a, quoteFree_nil⟩
theorem tidy_period (a : Period) : ∃ m s, WrittenAs a m s ∧ QuoteFree m := ⟨_, _, written_period a, quoteFree_nil⟩
theorem tidy_rdate (a : RDate) : ∃ m s, WrittenAs a m s ∧ QuoteFree m := ⟨_, _, written_rdate a, quoteFree_nil⟩
theorem tidy_date (a : Date) : ∃ m s, WrittenAs a m s ∧ QuoteFree m := by
  refine ⟨_, _, written_date a, ?_⟩
  cases a with
  | date _ => show ∀ p ∈ ([(c!"VALUE", c!"DATE")] : SMap Str), '"' ∉ p.2; decide
  | dateTime _ => exact quoteFree_nil
theorem tidy_trigger (a : Trigger) : ∃ m s, WrittenAs a m s ∧ QuoteFree m := by
  refine ⟨_, _, written_trigger a, ?_⟩
  cases a with
  | dateTime _ => show ∀ p ∈ ([(c!"VALUE", c!"DATE-TIME")] : SMap Str), '"' ∉ p.2; decide
  | duration _ => show ∀ p ∈ ([(c!"VALUE", c!"DURATION")] : SMap Str), '"' ∉ p.2; decide

theorem Audio.tidy {v : Audio} (h : TidyAudio v) : ∃ ls, Slots.Written Audio.fields v.toComp.slots ls ∧ Quiet ls :=
  Slots.tidy_cons (Field.tidy_req (tidy_text h.action)) <|
  Slots.tidy_cons (Field.tidy_req (tidy_trigger _)) <|
  Slots.tidy_cons (Field.tidy_opt fun a _ => tidy_delta a) <|
  Slots.tidy_cons (Field.tidy_opt fun a _ => tidy_nat a) <|
  Slots.tidy_cons (Field.tidy_push fun a ha => tidy_text (h.attach a ha)) <|
  Slots.tidy_nil

theorem Display.tidy {v : Display} (h : TidyDisplay v) : ∃ ls, Slots.Written Display.fields v.toComp.slots ls ∧ Quiet ls :=
  Slots.tidy_cons (Field.tidy_req (tidy_text h.action)) <|
  Slots.tidy_cons (Field.tidy_req (tidy_trigger _)) <|
  Slots.tidy_cons (Field.tidy_req (tidy_text h.description)) <|
  Slots.tidy_cons (Field.tidy_opt fun a _ => tidy_delta a) <|
  Slots.tidy_cons (Field.tidy_opt fun a _ => tidy_nat a) <|
  Slots.tidy_nil

theorem Email.tidy {v : Email} (h : TidyEmail v) : ∃ ls, Slots.Written Email.fields v.toComp.slots ls ∧ Quiet ls :=
  Slots.tidy_cons (Field.tidy_req (tidy_text h.action)) <|
  Slots.tidy_cons (Field.tidy_req (tidy_trigger _)) <|
  Slots.tidy_cons (Field.tidy_req (tidy_text h.description)) <|
  Slots.tidy_cons (Field.tidy_req (tidy_text h.summary)) <|
  Slots.tidy_cons (Field.tidy_push fun a ha => tidy_uri (h.attendee a ha)) <|
  Slots.tidy_cons (Field.tidy_opt fun a _ => tidy_delta a) <|
  Slots.tidy_cons (Field.tidy_opt fun a _ => tidy_nat a) <|
  Slots.tidy_cons (Field.tidy_push fun a ha => tidy_text (h.attach a ha)) <|
  Slots.tidy_nil

theorem VEvent.tidy {v : VEvent} (h : TidyVEvent v) : ∃ ls, Slots.Written VEvent.fields ({ v with alarms := [] } : VEvent).toComp.slots ls ∧ Quiet ls :=
  Slots.tidy_cons (Field.tidy_req (tidy_dateTime _)) <|
  Slots.tidy_cons (Field.tidy_req (tidy_text h.uid)) <|
  Slots.tidy_cons (Field.tidy_req (tidy_date _)) <|
  Slots.tidy_cons (Field.tidy_opt fun a ha => tidy_class (h.class_ a ha)) <|
  Slots.tidy_cons (Field.tidy_opt fun a _ => tidy_dateTime a) <|
  Slots.tidy_cons (Field.tidy_opt fun a ha => tidy_text (h.description a ha)) <|
  Slots.tidy_cons (Field.tidy_opt fun a ha => tidy_geo (h.geo a ha)) <|
  Slots.tidy_cons (Field.tidy_opt fun a _ => tidy_dateTime a) <|
  Slots.tidy_cons (Field.tidy_opt fun a ha => tidy_text (h.location a ha)) <|
  Slots.tidy_cons (Field.tidy_opt fun a ha => tidy_uri (h.organizer a ha)) <|
  Slots.tidy_cons (Field.tidy_opt fun a _ => tidy_nat a) <|
  Slots.tidy_cons (Field.tidy_opt fun a _ => tidy_nat a) <|
  Slots.tidy_cons (Field.tidy_opt fun a _ => tidy_status a) <|
  Slots.tidy_cons (Field.tidy_opt fun a ha => tidy_text (h.summary a ha)) <|
  Slots.tidy_cons (Field.tidy_opt fun a _ => tidy_transp a) <|
  Slots.tidy_cons (Field.tidy_opt fun a ha => tidy_uri (h.url a ha)) <|
  Slots.tidy_cons (Field.tidy_opt fun a _ => tidy_date a) <|
  Slots.tidy_cons (Field.tidy_opt fun a _ => tidy_rule a) <|
  Slots.tidy_cons (Field.tidy_opt fun a _ => tidy_date a) <|
  Slots.tidy_cons (Field.tidy_opt fun a _ => tidy_delta a) <|
  Slots.tidy_cons (Field.tidy_push fun a ha => tidy_text (h.attach a ha)) <|
  Slots.tidy_cons (Field.tidy_push fun a ha => tidy_uri (h.attendee a ha)) <|
  Slots.tidy_cons (Field.tidy_append fun a ha => tidy_text (h.categories a ha)) <|
  Slots.tidy_cons (Field.tidy_push fun a ha => tidy_text (h.comment a ha)) <|
  Slots.tidy_cons (Field.tidy_push fun a ha => tidy_text (h.contact a ha)) <|
  Slots.tidy_cons (Field.tidy_append fun a _ => tidy_date a) <|
  Slots.tidy_cons (Field.tidy_push fun a ha => tidy_rstatus (h.rstatus a ha)) <|
  Slots.tidy_cons (Field.tidy_push fun a ha => tidy_text (h.relatedTo a ha)) <|
  Slots.tidy_cons (Field.tidy_append fun a ha => tidy_text (h.resources a ha)) <|
  Slots.tidy_cons (Field.tidy_push fun a _ => tidy_rdate a) <|
  Slots.tidy_cons (Field.tidy_nested) <|
  Slots.tidy_nil

theorem VFreebusy.tidy {v : VFreebusy} (h : TidyVFreebusy v) : ∃ ls, Slots.Written VFreebusy.fields v.toComp.slots ls ∧ Quiet ls :=
  Slots.tidy_cons (Field.tidy_req (tidy_dateTime _)) <|
  Slots.tidy_cons (Field.tidy_req (tidy_text h.uid)) <|
  Slots.tidy_cons (Field.tidy_opt fun a ha => tidy_text (h.contact a ha)) <|
  Slots.tidy_cons (Field.tidy_opt fun a _ => tidy_date a) <|
  Slots.tidy_cons (Field.tidy_opt fun a _ => tidy_date a) <|
  Slots.tidy_cons (Field.tidy_opt fun a ha => tidy_uri (h.organizer a ha)) <|
  Slots.tidy_cons (Field.tidy_opt fun a ha => tidy_uri (h.url a ha)) <|
  Slots.tidy_cons (Field.tidy_push fun a ha => tidy_uri (h.attendee a ha)) <|
  Slots.tidy_cons (Field.tidy_push fun a ha => tidy_text (h.comment a ha)) <|
  Slots.tidy_cons (Field.tidy_append fun a _ => tidy_period a) <|
  Slots.tidy_cons (Field.tidy_push fun a ha => tidy_rstatus (h.rstatus a ha)) <|
  Slots.tidy_nil

theorem VJournal.tidy {v : VJournal} (h : TidyVJournal v) : ∃ ls, Slots.Written VJournal.fields v.toComp.slots ls ∧ Quiet ls :=
  Slots.tidy_cons (Field.tidy_req (tidy_dateTime _)) <|
  Slots.tidy_cons (Field.tidy_req (tidy_text h.uid)) <|
  Slots.tidy_cons (Field.tidy_opt fun a ha => tidy_class (h.class_ a ha)) <|
  Slots.tidy_cons (Field.tidy_opt fun a _ => tidy_dateTime a) <|
  Slots.tidy_cons (Field.tidy_req (tidy_date _)) <|
  Slots.tidy_cons (Field.tidy_opt fun a _ => tidy_dateTime a) <|
  Slots.tidy_cons (Field.tidy_opt fun a ha => tidy_uri (h.organizer a ha)) <|
  Slots.tidy_cons (Field.tidy_opt fun a _ => tidy_date a) <|
  Slots.tidy_cons (Field.tidy_opt fun a _ => tidy_nat a) <|
  Slots.tidy_cons (Field.tidy_opt fun a _ => tidy_status a) <|
  Slots.tidy_cons (Field.tidy_opt fun a ha => tidy_text (h.summary a ha)) <|
  Slots.tidy_cons (Field.tidy_opt fun a ha => tidy_uri (h.url a ha)) <|
  Slots.tidy_cons (Field.tidy_opt fun a _ => tidy_rule a) <|
  Slots.tidy_cons (Field.tidy_push fun a ha => tidy_text (h.attach a ha)) <|
  Slots.tidy_cons (Field.tidy_push fun a ha => tidy_uri (h.attendee a ha)) <|
  Slots.tidy_cons (Field.tidy_append fun a ha => tidy_text (h.categories a ha)) <|
  Slots.tidy_cons (Field.tidy_push fun a ha => tidy_text (h.comment a ha)) <|
  Slots.tidy_cons (Field.tidy_push fun a ha => tidy_text (h.contact a ha)) <|
  Slots.tidy_cons (Field.tidy_push fun a ha => tidy_text (h.description a ha)) <|
  Slots.tidy_cons (Field.tidy_append fun a _ => tidy_date a) <|
  Slots.tidy_cons (Field.tidy_push fun a ha => tidy_text (h.relatedTo a ha)) <|
  Slots.tidy_cons (Field.tidy_push fun a _ => tidy_rdate a) <|
  Slots.tidy_cons (Field.tidy_push fun a ha => tidy_rstatus (h.rstatus a ha)) <|
  Slots.tidy_nil

theorem Standard.tidy {v : Standard} (h : TidyStandard v) : ∃ ls, Slots.Written Standard.fields v.toComp.slots ls ∧ Quiet ls :=
  Slots.tidy_cons (Field.tidy_req (tidy_date _)) <|
  Slots.tidy_cons (Field.tidy_req (tidy_offset _)) <|
  Slots.tidy_cons (Field.tidy_req (tidy_offset _)) <|
  Slots.tidy_cons (Field.tidy_opt fun a _ => tidy_rule a) <|
  Slots.tidy_cons (Field.tidy_push fun a ha => tidy_text (h.comment a ha)) <|
  Slots.tidy_cons (Field.tidy_push fun a _ => tidy_rdate a) <|
  Slots.tidy_cons (Field.tidy_push fun a ha => tidy_text (h.tzname a ha)) <|
  Slots.tidy_nil

theorem Daylight.tidy {v : Daylight} (h : TidyDaylight v) : ∃ ls, Slots.Written Daylight.fields v.toComp.slots ls ∧ Quiet ls :=
  Slots.tidy_cons (Field.tidy_req (tidy_date _)) <|
  Slots.tidy_cons (Field.tidy_req (tidy_offset _)) <|
  Slots.tidy_cons (Field.tidy_req (tidy_offset _)) <|
  Slots.tidy_cons (Field.tidy_opt fun a _ => tidy_rule a) <|
  Slots.tidy_cons (Field.tidy_push fun a ha => tidy_text (h.comment a ha)) <|
  Slots.tidy_cons (Field.tidy_push fun a _ => tidy_rdate a) <|
  Slots.tidy_cons (Field.tidy_push fun a ha => tidy_text (h.tzname a ha)) <|
  Slots.tidy_nil

theorem VTimezone.tidy {v : VTimezone} (h : TidyVTimezone v) : ∃ ls, Slots.Written VTimezone.fields ({ v with standard := [], daylight := [] } : VTimezone).toComp.slots ls ∧ Quiet ls :=
  Slots.tidy_cons (Field.tidy_req (tidy_text h.tzid)) <|
  Slots.tidy_cons (Field.tidy_opt fun a _ => tidy_dateTime a) <|
  Slots.tidy_cons (Field.tidy_opt fun a ha => tidy_uri (h.tzurl a ha)) <|
  Slots.tidy_cons (Field.tidy_nested) <|
  Slots.tidy_cons (Field.tidy_nested) <|
  Slots.tidy_nil

theorem VTodo.tidy {v : VTodo} (h : TidyVTodo v) : ∃ ls, Slots.Written VTodo.fields v.toComp.slots ls ∧ Quiet ls :=
  Slots.tidy_cons (Field.tidy_req (tidy_dateTime _)) <|
  Slots.tidy_cons (Field.tidy_req (tidy_text h.uid)) <|
  Slots.tidy_cons (Field.tidy_opt fun a ha => tidy_class (h.class_ a ha)) <|
  Slots.tidy_cons (Field.tidy_opt fun a _ => tidy_dateTime a) <|
  Slots.tidy_cons (Field.tidy_opt fun a _ => tidy_dateTime a) <|
  Slots.tidy_cons (Field.tidy_opt fun a _ => tidy_date a) <|
  Slots.tidy_cons (Field.tidy_opt fun a ha => tidy_geo (h.geo a ha)) <|
  Slots.tidy_cons (Field.tidy_opt fun a _ => tidy_dateTime a) <|
  Slots.tidy_cons (Field.tidy_opt fun a ha => tidy_text (h.location a ha)) <|
  Slots.tidy_cons (Field.tidy_opt fun a ha => tidy_uri (h.organizer a ha)) <|
  Slots.tidy_cons (Field.tidy_opt fun a _ => tidy_nat a) <|
  Slots.tidy_cons (Field.tidy_opt fun a _ => tidy_nat a) <|
  Slots.tidy_cons (Field.tidy_opt fun a _ => tidy_date a) <|
  Slots.tidy_cons (Field.tidy_opt fun a _ => tidy_nat a) <|
  Slots.tidy_cons (Field.tidy_opt fun a _ => tidy_status a) <|
  Slots.tidy_cons (Field.tidy_opt fun a ha => tidy_text (h.summary a ha)) <|
  Slots.tidy_cons (Field.tidy_opt fun a ha => tidy_uri (h.url a ha)) <|
  Slots.tidy_cons (Field.tidy_opt fun a _ => tidy_rule a) <|
  Slots.tidy_cons (Field.tidy_opt fun a _ => tidy_date a) <|
  Slots.tidy_cons (Field.tidy_opt fun a _ => tidy_delta a) <|
  Slots.tidy_cons (Field.tidy_push fun a ha => tidy_text (h.attach a ha)) <|
  Slots.tidy_cons (Field.tidy_push fun a ha => tidy_uri (h.attendee a ha)) <|
  Slots.tidy_cons (Field.tidy_append fun a ha => tidy_text (h.categories a ha)) <|
  Slots.tidy_cons (Field.tidy_push fun a ha => tidy_text (h.comment a ha)) <|
  Slots.tidy_cons (Field.tidy_push fun a ha => tidy_text (h.contact a ha)) <|
  Slots.tidy_cons (Field.tidy_append fun a _ => tidy_date a) <|
  Slots.tidy_cons (Field.tidy_push fun a ha => tidy_rstatus (h.rstatus a ha)) <|
  Slots.tidy_cons (Field.tidy_push fun a ha => tidy_text (h.relatedTo a ha)) <|
  Slots.tidy_cons (Field.tidy_append fun a ha => tidy_text (h.resources a ha)) <|
  Slots.tidy_cons (Field.tidy_push fun a _ => tidy_rdate a) <|
  Slots.tidy_nil

theorem VCalendar.tidy {v : VCalendar} (h : TidyVCalendar v) : ∃ ls, Slots.Written VCalendar.fields ({ v with alarms := [], events := [], freebusy := [], journals := [], todo := [], timezones := [] } : VCalendar).toComp.slots ls ∧ Quiet ls :=
  Slots.tidy_cons (Field.tidy_req (tidy_text h.prodid)) <|
  Slots.tidy_cons (Field.tidy_req (tidy_text h.version)) <|
  Slots.tidy_cons (Field.tidy_opt fun a ha => tidy_text (h.calscale a ha)) <|
  Slots.tidy_cons (Field.tidy_opt fun a ha => tidy_text (h.method a ha)) <|
  Slots.tidy_cons (Field.tidy_nested) <|
  Slots.tidy_cons (Field.tidy_nested) <|
  Slots.tidy_cons (Field.tidy_nested) <|
  Slots.tidy_cons (Field.tidy_nested) <|
  Slots.tidy_cons (Field.tidy_nested) <|
  Slots.tidy_cons (Field.tidy_nested) <|
  Slots.tidy_nil

end Main

end Ikal
