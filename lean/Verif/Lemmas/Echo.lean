import Verif.Spec.Echo
import Verif.Lemmas.Tidy
import Verif.Lemmas.Output
import Verif.Props.Reading

/-!
# Lines that are written and read: one property at a time
-/

namespace Ikal

open Nom Spec

set_option linter.unusedSectionVars false
set_option linter.unusedSimpArgs false

section
variable [Platform]

/-- The writing `W` is that of the type, and the value is written as a line. -/
structure WritesLine {α : Type} (s : Ser α) (W : Back.Writing α) (v : α) : Prop where
  form : IsForm α s W.form
  line : ∃ t, @WrittenAs _ s v (W.params v) t

theorem writes_iff {α : Type} {s : Ser α} {W : Back.Writing α} {v : α} (h : IsForm α s W.form) {t : Str} :
    W.Writes v t ↔ s.ical v = .ok t := by
  unfold Back.Writing.Writes
  simp only [h.form]
  exact ⟨fun ⟨_, _, h⟩ => h, fun h => ⟨_, rfl, h⟩⟩

theorem writes_eq {α : Type} {s : Ser α} {W : Back.Writing α} {v : α} (h : IsForm α s W.form) {m : SMap Str} {t t' : Str}
    (hw : @WrittenAs _ s v m t) : W.Writes v t' ↔ t' = t := by
  rw [writes_iff h, hw.ical]
  simp [eq_comm]

theorem all2_writes {α : Type} {s : Ser α} {W : Back.Writing α} {v : List α} (h : IsForm α s W.form) (hw : ∀ a ∈ v, WritesLine s W a) :
    ∃ ts, All2 (fun x t => s.ical x = .ok t ∧ Clean t) v ts ∧ ∀ ts', All2 W.Writes v ts' ↔ ts' = ts := by
  induction v with
  | nil => exact ⟨[], .nil, fun ts' => ⟨fun h => by cases h; rfl, fun h => h ▸ .nil⟩⟩
  | cons a v ih =>
    obtain ⟨t, ht⟩ := (hw a (by simp)).line
    obtain ⟨ts, h1, h2⟩ := ih fun b hb => hw b (by simp [hb])
    refine ⟨t :: ts, .cons ⟨ht.ical, ht.clean⟩ h1, fun ts' => ⟨fun h => ?_, ?_⟩⟩
    · cases h with
      | cons a b => rw [(writes_eq ‹_› ht).1 a, (h2 _).1 b]
    · rintro rfl
      exact .cons ((writes_eq h ht).2 rfl) ((h2 _).2 rfl)

namespace Field

/-- The value `v` is written as lines that are read as the values described by `E`. -/
def Echoes (f : Field) (v : f.T) (E : f.T → Prop) : Prop := ∃ l, f.Written v l ∧ ∀ w, f.Holds l w ↔ E w

theorem echo_req {n : Str} {α : Type} {s : Ser α} {p : ContentLine → Res α} {W : Back.Writing α} {R : ContentLine → α → Prop} {v : α}
    (hr : ReadsAs p R) (hw : WritesLine s W v) : (Field.req n α s p).Echoes v (Back.One n W R v) := by
  obtain ⟨hf, t, ht⟩ := hw
  refine ⟨_, ⟨_, t, ht, rfl⟩, fun w => ?_⟩
  show IsReq _ _ _ _ ↔ _
  unfold Back.One
  simp only [writes_eq hf ht, exists_eq_left]
  unfold lineOf
  split
  · next h => simp [IsReq, lastNamed, named, h]
  · next h => simp [IsReq, lastNamed, named, h, hr _ _]

theorem isOpt_lineOf {n : Str} {α : Type} {p : ContentLine → Res α} {R : ContentLine → α → Prop} (hr : ReadsAs p R) {m : SMap Str} {t : Str}
    {w : Option α} : IsOpt (lineOf n m t) n p w ↔ t = [] ∧ w = none ∨ t ≠ [] ∧ ∃ b, R ⟨n, m, t⟩ b ∧ w = some b := by
  unfold lineOf
  split
  · next h => simp [IsOpt, lastNamed, named, h]
  · next h =>
    simp only [IsOpt, lastNamed, named_self, hr _ _]
    constructor
    · rintro ⟨_, _, h1⟩
      exact .inr ⟨h, h1 _ rfl⟩
    · rintro (⟨h', _⟩ | ⟨_, b, h1, h2⟩)
      · exact absurd h' h
      · refine ⟨fun l hl => ?_, fun h => by simp at h, fun l hl => ?_⟩
        · simp at hl; subst hl; exact ⟨b, h1⟩
        · simp at hl; subst hl; exact ⟨b, h1, h2⟩

theorem echo_opt {n : Str} {α : Type} {s : Ser α} {p : ContentLine → Res α} {W : Back.Writing α} {R : ContentLine → α → Prop} {v : Option α}
    (hr : ReadsAs p R) (hw : ∀ a ∈ v, WritesLine s W a) : (Field.opt n α s p).Echoes v (Back.Opt n W R v) := by
  cases v with
  | none =>
    refine ⟨[], rfl, fun w => ?_⟩
    show IsOpt _ _ _ _ ↔ w = none
    simp [IsOpt, lastNamed, named]
  | some a =>
    obtain ⟨hf, t, ht⟩ := hw a rfl
    refine ⟨_, ⟨_, t, ht, rfl⟩, fun w => ?_⟩
    show IsOpt _ _ _ _ ↔ ∃ t, _
    rw [isOpt_lineOf hr]
    simp only [writes_eq hf ht, exists_eq_left]

theorem isPush_lineOf {n : Str} {α : Type} {p : ContentLine → Res α} {R : ContentLine → α → Prop} (hr : ReadsAs p R) {m : SMap Str} {t : Str}
    {w : List α} : IsPush (lineOf n m t) n p w ↔ t = [] ∧ w = [] ∨ t ≠ [] ∧ ∃ b, R ⟨n, m, t⟩ b ∧ w = [b] := by
  unfold lineOf IsPush
  split
  · next h => cases w <;> simp [named, h]
  · next h =>
    rw [named_self]
    match w with
    | [] => simp [h]
    | [b] => simp [h, hr _ _]
    | _ :: _ :: _ => simp

theorem isAppend_lineOf {n : Str} {α : Type} {p : ContentLine → Res (List α)} {R : ContentLine → List α → Prop} (hr : ReadsAs p R)
    {m : SMap Str} {t : Str} {w : List α} :
    IsAppend (lineOf n m t) n p w ↔ t = [] ∧ w = [] ∨ t ≠ [] ∧ R ⟨n, m, t⟩ w := by
  unfold lineOf IsAppend
  split
  · next h =>
    simp only [named, h, List.filter_nil, List.map_nil]
    simp
  · next h =>
    rw [named_self]
    simp [h]
    constructor
    · rintro ⟨vss, h1, rfl⟩
      match vss, h1 with
      | [b], h1 => simp at h1; simpa using (hr _ _).1 h1
      | [], h1 => simp at h1
      | _ :: _ :: _, h1 => simp at h1
    · intro h1
      exact ⟨[w], by simpa using (hr _ _).2 h1, by simp⟩

theorem join_ne {a b : Str} {l : List Str} : joinWith c!"," (a :: b :: l) ≠ [] := by simp [joinWith]

theorem echo_push {n : Str} {α : Type} {s : Ser α} {p : ContentLine → Res α} {W : Back.Writing α} {R : ContentLine → α → Prop} {v : List α}
    (hr : ReadsAs p R) (hf : IsForm α s W.form) (hw : ∀ a ∈ v, WritesLine s W a) : (Field.push n α s p).Echoes v (Back.Many n W R v) := by
  match v, hw with
  | [], _ =>
    refine ⟨[], rfl, fun w => ?_⟩
    show IsPush _ _ _ _ ↔ w = []
    cases w <;> simp [IsPush, named]
  | [a], hw =>
    obtain ⟨hf, t, ht⟩ := hw a (by simp)
    refine ⟨_, ⟨_, t, ht, rfl⟩, fun w => ?_⟩
    show IsPush _ _ _ _ ↔ ∃ t, _
    rw [isPush_lineOf hr]
    simp only [writes_eq hf ht, exists_eq_left]
  | a :: b :: v, hw =>
    obtain ⟨ts, h1, h2⟩ := all2_writes hf hw
    refine ⟨_, ⟨ts, h1, rfl⟩, fun w => ?_⟩
    show IsPush _ _ _ _ ↔ ∃ ts, _
    simp only [h2, exists_eq_left]
    rw [isPush_lineOf hr, join_eq_joinWith]
    cases h1 with
    | cons _ h1 => cases h1 with
      | cons _ _ => simp [join_ne]

theorem echo_append {n : Str} {α : Type} {s : Ser α} {p : ContentLine → Res (List α)} {W : Back.Writing α}
    {R : ContentLine → List α → Prop} {v : List α}
    (hr : ReadsAs p R) (hf : IsForm α s W.form) (hw : ∀ a ∈ v, WritesLine s W a) :
    (Field.append n α s p).Echoes v (Back.Parts n W R v) := by
  match v, hw with
  | [], _ =>
    refine ⟨[], rfl, fun w => ?_⟩
    show IsAppend _ _ _ _ ↔ w = []
    have := isAppend_lineOf hr (n := n) (m := []) (t := []) (w := w)
    simpa [lineOf] using this
  | [a], hw =>
    obtain ⟨hf, t, ht⟩ := hw a (by simp)
    refine ⟨_, ⟨_, t, ht, rfl⟩, fun w => ?_⟩
    show IsAppend _ _ _ _ ↔ ∃ t, _
    rw [isAppend_lineOf hr]
    simp only [writes_eq hf ht, exists_eq_left]
  | a :: b :: v, hw =>
    obtain ⟨ts, h1, h2⟩ := all2_writes hf hw
    refine ⟨_, ⟨ts, h1, rfl⟩, fun w => ?_⟩
    show IsAppend _ _ _ _ ↔ ∃ ts, _
    simp only [h2, exists_eq_left]
    rw [isAppend_lineOf hr, join_eq_joinWith]
    cases h1 with
    | cons _ h1 => cases h1 with
      | cons _ _ => simp [join_ne]

theorem echo_nested {n : Str} {α : Type} {s : Ser α} : (Field.nested n α s).Echoes ([] : List α) (fun w => w = ([] : List α)) :=
  ⟨[], ⟨rfl, rfl⟩, fun _ => Iff.rfl⟩

end Field

namespace Slots

/-- The values `v` are written as lines that are read as the values described by `E`. -/
def Echoes (fs : List Field) (v : Slots fs) (E : Slots fs → Prop) : Prop :=
  (fs.map Field.name).Nodup → ∃ ls, Written fs v ls ∧ ∀ w, Holds fs ls w ↔ E w

theorem echo_nil {v : Slots []} : Echoes [] v fun _ => True := fun _ => ⟨[], rfl, fun _ => Iff.rfl⟩

theorem echo_cons {f : Field} {fs : List Field} {v : f.T} {vs : Slots fs} {E : f.T → Prop}
    {Es : Slots fs → Prop} (h : f.Echoes v E) (h' : Echoes fs vs Es) : Echoes (f :: fs) (v, vs) fun w => E w.1 ∧ Es w.2 := by
  intro hd
  simp only [List.map_cons, List.nodup_cons] at hd
  obtain ⟨l, h1, h2⟩ := h
  obtain ⟨l', h3, h4⟩ := h' hd.2
  refine ⟨_, ⟨l, l', h1, h3, rfl⟩, fun (w, ws) => ?_⟩
  show f.Holds (l ++ l') w ∧ Holds fs (l ++ l') ws ↔ E w ∧ Es ws
  rw [← h2, ← h4, holds_mid, Field.Holds.congr (ls' := l)]
  · intro _
    rw [named_append, named_eq_nil (a := l'), List.append_nil]
    intro x hx e
    exact hd.1 (e ▸ h3.keys x hx)
  · intro x hx hm
    rw [h1.keys x hx] at hm
    exact hd.1 hm

end Slots

/-! ## Extension properties -/

theorem isExt_back_iff {known : List Str} {sel : Str → Prop} {ls : List ContentLine} (hk : ∀ l ∈ ls, l.key ∈ known) {n n' s s' : Str}
    (hn : n ∉ known) (hs : sel n) (hs' : ¬ sel n') {m m' : SMap ContentLine} (hm : SMap.ical m = .ok s)
    (post : List ContentLine) (hpost : ∀ k, lastNamed k post = if k = n ∧ s ≠ [] then some ⟨n, [], s⟩ else if k = n' ∧ s' ≠ [] then some ⟨n', [], s'⟩ else none) :
    IsExt known sel (ls ++ post) m' ↔ m' = extBack n m s := by
  refine ⟨isExt_back hk hn hs hs' hm post hpost, ?_⟩
  rintro rfl
  have hle := lineOf_ext hm
  have hback : ∀ k, SMap.get? (extBack n m s) k = if k = n ∧ s ≠ [] then some ⟨n, [], s⟩ else none := by
    intro k
    unfold extBack
    by_cases hm' : m = []
    · simp [hm', hle]
    · by_cases hkn : k = n
      · simp [hm', hkn, hle, SMap.get?]
      · simp [hm', hkn, SMap.get?]
  refine ⟨?_, fun k h1 h2 => ?_, fun k h => ?_⟩
  · unfold extBack
    split
    · exact SMap.wf_nil
    · simp [SMap.Wf]
  · rw [hback, lastNamed_append, hpost]
    have : lastNamed k ls = none := by
      rw [lastNamed, Slots.named_eq_nil]
      · rfl
      · intro l hl e
        exact h1 (e ▸ hk l hl)
    rw [this]
    by_cases h5 : k = n ∧ s ≠ []
    · simp [h5]
    · rw [if_neg h5, if_neg h5, if_neg]
      · simp
      · rintro ⟨rfl, _⟩
        exact hs' h2
  · rw [hback, if_neg]
    rintro ⟨rfl, _⟩
    rcases h with h | h
    · exact hn h
    · exact h hs

theorem extBack_iff {n : Str} {m m' : SMap ContentLine} {s : Str} (h : SMap.ical m = .ok s) : m' = extBack n m s ↔ Back.Ext n m m' := by
  have e : Res.mapM' (fun (p : Str × ContentLine) => (Ser.ical p.2).map fun s => p.1 ++ '=' :: s) m =
      .ok (m.map fun p => p.1 ++ '=' :: escape p.2.value) := mapM'_ok (fun _ _ => rfl)
  unfold SMap.ical at h
  rw [e] at h
  replace h := Res.ok.inj h
  have hu : ∀ ts, All2 (fun (p : Str × ContentLine) t => ∃ e, EscapedAs p.2.value e ∧ t = p.1 ++ c!"=" ++ e) m ts ↔
      ts = m.map fun p => p.1 ++ '=' :: escape p.2.value := by
    clear e h
    induction m with
    | nil => exact fun ts => ⟨fun h => by cases h; rfl, fun h => by subst h; exact .nil⟩
    | cons p m ih =>
      intro ts
      constructor
      · intro h
        cases h with
        | cons a b =>
          obtain ⟨e, h1, h2⟩ := a
          rw [escapedAs_iff.1 h1] at h2
          rw [(ih _).1 b, h2]
          simp
      · rintro rfl
        exact .cons ⟨_, escapedAs_iff.2 rfl, by simp⟩ ((ih _).2 rfl)
  unfold extBack Back.Ext
  simp only [hu, exists_eq_left]
  by_cases hm : m = []
  · simp [hm]
  · simp only [hm, if_false, false_and, false_or, not_false_iff, true_and, ne_eq]
    rw [← h, join_eq_joinWith]

/-- What the lines of a component are read as. -/
theorem Comp.tryFrom_echo {fs : List Field} (hd : (fs.map Field.name).Nodup) (hxn : c!"X-PROP" ∉ fs.map Field.name)
    (hin : c!"IANA-PROP" ∉ fs.map Field.name) {v : Comp fs} {sx si : Str}
    (hx : SMap.ical v.xProp = .ok sx) (hi : SMap.ical v.ianaProp = .ok si)
    {ls : List ContentLine} (hw : Slots.Written fs v.slots ls) {E : Slots fs → Prop} (hE : ∀ w, Slots.Holds fs ls w ↔ E w) {w : Comp fs} :
    Comp.tryFrom fs (ls ++ (lineOf c!"X-PROP" [] sx ++ lineOf c!"IANA-PROP" [] si)) = .ok w ↔
      E w.slots ∧ Back.Ext c!"X-PROP" v.xProp w.xProp ∧ Back.Ext c!"IANA-PROP" v.ianaProp w.ianaProp := by
  rw [Comp.tryFrom_ok (knownNames_nodup hd)]
  have hsub : ∀ k, k ∈ knownNames fs → k ∈ fs.map Field.name := by
    intro k hk
    obtain ⟨f, hf, rfl⟩ := List.mem_map.1 hk
    exact List.mem_map.2 ⟨f, (List.mem_filter.1 hf).1, rfl⟩
  unfold Comp.Holds
  rw [← extBack_iff hx, ← extBack_iff hi, Slots.holds_post, hE]
  · refine and_congr_right fun _ => and_congr ?_ ?_
    · refine isExt_back_iff (n' := c!"IANA-PROP") (s' := si) hw.known (fun hk => hxn (hsub _ hk)) ⟨c!"PROP", rfl⟩ (by unfold IsX; decide) hx _ (fun k => ?_)
      rw [lastNamed_append, lastNamed_lineOf, lastNamed_lineOf]
      by_cases hk : k = c!"X-PROP"
      · subst hk; simp
      · by_cases hk' : k = c!"IANA-PROP"
        · subst hk'; simp
        · simp [hk, hk']
    · refine isExt_back_iff (n' := c!"X-PROP") (s' := sx) hw.known (fun hk => hin (hsub _ hk)) (by unfold IsX; decide) (fun hn => hn ⟨c!"PROP", rfl⟩) hi _ (fun k => ?_)
      rw [lastNamed_append, lastNamed_lineOf, lastNamed_lineOf]
      by_cases hk : k = c!"X-PROP"
      · subst hk; simp
      · by_cases hk' : k = c!"IANA-PROP"
        · subst hk'; simp
        · simp [hk, hk']
  · intro l hl
    rcases List.mem_append.1 hl with hl | hl
    · rw [lineOf_key l hl]; exact hxn
    · rw [lineOf_key l hl]; exact hin

/-! ## Values -/

theorem line_text {v : Text} (h : TidyText v) : WritesLine inferInstance Back.asText v := ⟨text_form, _, written_text h.1 h.2.1⟩
theorem line_uri {v : Uri} (h : TidyUri v) : WritesLine inferInstance Back.asUri v := ⟨uri_form, _, written_uri h.1 h.2.1⟩
theorem line_nat (v : Nat) : WritesLine inferInstance Back.asNumber v := ⟨number_form, _, written_nat v⟩
theorem line_rule (v : Recur) : WritesLine inferInstance Back.asRule v := ⟨rule_form, _, written_rule v⟩
theorem line_date (v : Date) : WritesLine inferInstance Back.asDate v := ⟨date_form, _, by
  cases v <;> exact written_date _⟩
theorem line_trigger (v : Trigger) : WritesLine inferInstance Back.asTrigger v := ⟨trigger_form, _, by
  cases v <;> exact written_trigger _⟩
theorem line_rstatus {v : RequestStatus} (h : TidyRequestStatus v) : WritesLine inferInstance Back.asRequestStatus v :=
  ⟨requestStatus_form, _, written_rstatus (.mk h.1.1 h.1.2) h.2.1 h.2.2⟩

theorem form_shown {α : Type} (s : Ser α) (f : α → Str) (h1 : s.isComponent = false) (h2 : ∀ v, s.attr v = none) (h3 : ∀ v, s.ical v = .ok (f v)) :
    IsForm α s (Back.asShown f).form := shown_form f h1 h2 h3

theorem form_dateTime : IsForm DateTime inferInstance (Back.asShown DateTime.toStr).form := form_shown _ _ rfl (fun _ => rfl) fun _ => rfl
theorem form_delta : IsForm TimeDelta inferInstance (Back.asShown TimeDelta.toStr).form := form_shown _ _ rfl (fun _ => rfl) fun _ => rfl
theorem form_offset : IsForm FixedOffset inferInstance (Back.asShown FixedOffset.toStr).form := form_shown _ _ rfl (fun _ => rfl) fun _ => rfl
theorem form_status : IsForm Status inferInstance (Back.asShown Status.toStr).form := form_shown _ _ rfl (fun _ => rfl) fun _ => rfl
theorem form_transp : IsForm TimeTransparency inferInstance (Back.asShown TimeTransparency.toStr).form := form_shown _ _ rfl (fun _ => rfl) fun _ => rfl
theorem form_class : IsForm Class inferInstance (Back.asShown Class.toStr).form := form_shown _ _ rfl (fun _ => rfl) fun _ => rfl
theorem form_geo : IsForm Geo inferInstance (Back.asShown Geo.toStr).form := form_shown _ _ rfl (fun _ => rfl) fun _ => rfl
theorem form_period : IsForm Period inferInstance (Back.asShown Period.toStr).form := form_shown _ _ rfl (fun _ => rfl) fun _ => rfl
theorem form_rdate : IsForm RDate inferInstance (Back.asShown RDate.toStr).form := form_shown _ _ rfl (fun _ => rfl) fun _ => rfl

theorem line_dateTime (v : DateTime) : WritesLine inferInstance (Back.asShown DateTime.toStr) v := ⟨form_dateTime, _, written_dateTime v⟩
theorem line_delta (v : TimeDelta) : WritesLine inferInstance (Back.asShown TimeDelta.toStr) v := ⟨form_delta, _, written_delta v⟩
theorem line_offset (v : FixedOffset) : WritesLine inferInstance (Back.asShown FixedOffset.toStr) v := ⟨form_offset, _, written_offset v⟩
theorem line_status (v : Status) : WritesLine inferInstance (Back.asShown Status.toStr) v := ⟨form_status, _, written_status v⟩
theorem line_transp (v : TimeTransparency) : WritesLine inferInstance (Back.asShown TimeTransparency.toStr) v := ⟨form_transp, _, written_transp v⟩
theorem line_period (v : Period) : WritesLine inferInstance (Back.asShown Period.toStr) v := ⟨form_period, _, written_period v⟩
theorem line_rdate (v : RDate) : WritesLine inferInstance (Back.asShown RDate.toStr) v := ⟨form_rdate, _, written_rdate v⟩
theorem line_class {v : Class} (h : TidyClass v) : WritesLine inferInstance (Back.asShown Class.toStr) v := by
  obtain ⟨m, s, hw, -⟩ := tidy_class h
  have : s = v.toStr := Res.ok.inj (hw.ical.symm.trans rfl)
  subst this
  exact ⟨form_class, _, written_class hw.clean.lf hw.clean.cr⟩
theorem line_geo {v : Geo} (h : TidyGeo v) : WritesLine inferInstance (Back.asShown Geo.toStr) v := by
  obtain ⟨m, s, hw, -⟩ := tidy_geo h
  have : s = v.toStr := Res.ok.inj (hw.ical.symm.trans rfl)
  subst this
  exact ⟨form_geo, _, written_geo hw.clean.lf hw.clean.cr⟩

end

end Ikal
