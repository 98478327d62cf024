import Verif.Lemmas.FloatText
import Verif.Lemmas.Values
import Verif.Spec.Ascii
import Verif.Spec.Tidy
import Verif.Props.Equality
import Verif.TestPlatform
import Verif.Spec.RoundTrip

/-!
# C94: the numbers of positions and request statuses

Everything else that is proved holds for whatever 32-bit floats are; here they are the floats of IEEE 754 (`ieee P`), on any platform `P`.
-/

namespace Ikal
open Spec

set_option linter.unusedSectionVars false

/-- A minus sign for a negative number. -/
def signText (neg : Bool) : Str := if neg then ['-'] else []

section
variable (P : Platform)

/-! ## Reading -/

/-- **C94**: every decimal number is rounded to exactly one float (or to infinity). -/
theorem C94_nearest (c : Nat) (e : Int) : ∃ n, RoundsTo c e n ∧ ∀ m, RoundsTo c e m → m = n :=
  ⟨_, F32.nearestDecimal_iff.1 rfl, fun _ h => (F32.nearestDecimal_iff.2 h).symm⟩

/-- **C94**: what is read at the beginning of a text, and what is left of it: a number is rounded to the nearest float. -/
theorem C94_read (s r : Str) (x : F32) : (ieee P).floatParse s = some (x, r) ↔ FloatText s x r := F32.parse_iff

/-! ## Writing -/

/-- **C94**: a finite number other than zero is shown as the decimal number with the fewest digits that is read as it; among those the nearest one with the same number of decimals.
It has no zeros at its end (other than those before the point). -/
theorem C94_shown (neg : Bool) (b : Fin f32Inf) (h0 : b.val ≠ 0) : ∃ t c e, (ieee P).floatShow (.fin neg b) = signText neg ++ t ∧ PlainDecimal t c e ∧ RoundsTo c e b ∧
    (∀ c' e' n, RoundsTo c' e' b → c' < 10 ^ n → c < 10 ^ n) ∧
    (∀ c', RoundsTo c' e b → Off b (c * 2 ^ 149 * 10 ^ e.toNat) (10 ^ (-e).toNat) ≤ Off b (c' * 2 ^ 149 * 10 ^ e.toNat) (10 ^ (-e).toNat)) ∧
    c % 10 ≠ 0 := by
  have hend := F32.shortest_end b.isLt h0
  refine ⟨_, (F32.shortest b.val).1, (F32.shortest b.val).2, ?_, F32.decimalText_plain (.inl fun h => hend (by rw [h])), F32.nearestDecimal_iff.1 (F32.shortest_rounds b.val), ?_, ?_, hend⟩
  · show F32.display (.fin neg b) = _
    rw [F32.display, if_neg h0]
    rfl
  · exact fun c' e' n h hn => F32.shortest_digits b.isLt h0 (F32.nearestDecimal_iff.2 h) hn
  · exact fun c' h => F32.shortestAt_closest (F32.shortest_spec b.val).2.1 (F32.nearestDecimal_iff.2 h)

/-- **C94**: with one decimal, as the tenths that are the nearest. -/
theorem C94_tenths (neg : Bool) (b : Fin f32Inf) : ∃ t c, (ieee P).floatShow1 (.fin neg b) = signText neg ++ t ∧ PlainDecimal t c (-1) ∧ Tenths b c :=
  ⟨_, F32.tenths b.val, rfl, F32.decimalText_plain (.inr (by decide)), (F32.tenths_is b.val _).1 rfl⟩

/-- **C94**: zero, infinity and what is not a number. -/
theorem C94_special : (ieee P).floatShow (.fin false ⟨0, by decide⟩) = c!"0" ∧ (ieee P).floatShow (.fin true ⟨0, by decide⟩) = c!"-0" ∧
    (∀ shown, shown = (ieee P).floatShow ∨ shown = (ieee P).floatShow1 → shown (.inf false) = c!"inf" ∧ shown (.inf true) = c!"-inf" ∧ shown .nan = c!"NaN") := by
  refine ⟨rfl, rfl, ?_⟩
  rintro shown (rfl | rfl) <;> exact ⟨rfl, rfl, rfl⟩

/-! ## Positions -/

theorem F32.read_special {r : Str} (hr : F32.Ends r) : F32.parse (c!"NaN" ++ r) = some (.nan, r) ∧ F32.parse (c!"inf" ++ r) = some (.inf false, r) ∧
    F32.parse (c!"-inf" ++ r) = none := by
  rcases hr with rfl | ⟨t, rfl⟩
  · decide +kernel
  · exact ⟨rfl, rfl, rfl⟩

theorem plain_chars {t : Str} {c : Nat} {e : Int} (h : PlainDecimal t c e) : ∀ d ∈ t, d.isDigit = true ∨ d = '.' := by
  intro d hd
  rcases h with ⟨-, h, -⟩ | ⟨-, i, f, rfl, hi, hf, -⟩
  · exact .inl ((Digits_iff.1 h).2 d hd)
  · rcases List.mem_append.1 hd with hd | hd
    · exact .inl ((Digits_iff.1 hi).2 d hd)
    · rcases List.mem_cons.1 hd with hd | hd
      · exact .inr hd
      · exact .inl ((Digits_iff.1 hf).2 d hd)

/-- The characters that a number is shown with. -/
def NumberChar (c : Char) : Prop := c.isDigit = true ∨ c ∈ c!".-NaNinf"

theorem NumberChar.sane {c : Char} (h : NumberChar c) : c ≠ '\n' ∧ c ≠ '\r' ∧ c.toNat < 128 := by
  rcases h with h | h
  · refine ⟨by rintro rfl; exact absurd h (by decide), by rintro rfl; exact absurd h (by decide), ?_⟩
    have : c.toNat ≤ '9'.toNat := (isDigit_iff.1 h).2
    have e : '9'.toNat = 57 := rfl
    omega
  · simp only [strLit, List.mem_cons, List.not_mem_nil, or_false] at h
    rcases h with rfl | rfl | rfl | rfl | rfl | rfl | rfl | rfl <;> decide

theorem shown_chars (x : F32) : (∀ c ∈ F32.display x, NumberChar c) ∧ ∀ c ∈ F32.display1 x, NumberChar c := by
  have sign : ∀ neg, ∀ c ∈ F32.minus neg, NumberChar c := by
    intro neg c hc
    cases neg
    · cases hc
    · exact .inr (by rw [List.mem_singleton.1 hc]; decide)
  have word : ∀ w : Str, (∀ c ∈ w, c ∈ c!".-NaNinf") → ∀ c ∈ w, NumberChar c := fun w h c hc => .inr (h c hc)
  have text : ∀ {t : Str} {c : Nat} {e : Int}, PlainDecimal t c e → ∀ d ∈ t, NumberChar d := by
    intro t c e h d hd
    rcases plain_chars h d hd with h | rfl
    · exact .inl h
    · exact .inr (by decide)
  cases x with
  | nan => exact ⟨word c!"NaN" (by decide), word c!"NaN" (by decide)⟩
  | inf neg =>
    have : ∀ c ∈ F32.minus neg ++ c!"inf", NumberChar c := fun c hc => (List.mem_append.1 hc).elim (sign neg c) (word c!"inf" (by decide) c)
    exact ⟨this, this⟩
  | fin neg b =>
    constructor
    · obtain ⟨t, c, e, h1, h2, -⟩ := F32.display_plain neg b
      rw [h1]
      exact fun c hc => (List.mem_append.1 hc).elim (sign neg c) (text h2 c)
    · obtain ⟨t, c, h1, h2, -⟩ := C94_tenths utc neg b
      intro d hd
      have hd : d ∈ signText neg ++ t := by rw [← h1]; exact hd
      exact (List.mem_append.1 hd).elim (sign neg d) (text h2 d)

/-- **C94**: numbers are shown in ASCII and on one line. -/
theorem C94_sane : @SaneFloats (ieee P) ∧ ∀ x : F32, @TidyFloat (ieee P) (ieee P).floatShow x ∧ @TidyFloat (ieee P) (ieee P).floatShow1 x := by
  refine ⟨⟨?_, ?_⟩, ?_⟩
  · intro s x r h
    rcases (C94_read P s r x).1 h with h | ⟨-, w, rfl, -⟩ | ⟨-, ⟨w, rfl, -⟩ | ⟨⟨w, rfl, -⟩, -⟩⟩
    · obtain ⟨sg, i, pt, f, ex, neg, e, rfl, -⟩ := h
      exact ⟨sg ++ (i ++ (pt ++ (f ++ ex))), by simp⟩
    · exact ⟨w, rfl⟩
    · exact ⟨w, rfl⟩
    · exact ⟨w, rfl⟩
  · exact fun x => ⟨fun c hc => ((shown_chars x).1 c hc).sane.2.2, fun c hc => ((shown_chars x).2 c hc).sane.2.2⟩
  · exact fun x => ⟨⟨fun h => ((shown_chars x).1 _ h).sane.1 rfl, fun h => ((shown_chars x).1 _ h).sane.2.1 rfl⟩,
      fun h => ((shown_chars x).2 _ h).sane.1 rfl, fun h => ((shown_chars x).2 _ h).sane.2.1 rfl⟩

/-- **C94**: every number of a position is read back as it was, except minus infinity. -/
theorem C94_number (x : F32) : @GoodFloat (ieee P) (ieee P).floatShow x ↔ x ≠ .inf true := by
  constructor
  · rintro ⟨h, -⟩ rfl
    have := (F32.read_special (.inl rfl)).2.2
    rw [List.append_nil] at this
    exact absurd (h.symm.trans this) (by simp)
  · intro hx
    have key : ∀ r, F32.Ends r → F32.parse (F32.display x ++ r) = some (x, r) := by
      intro r hr
      cases x with
      | nan => exact (F32.read_special hr).1
      | inf neg =>
        cases neg
        · exact (F32.read_special hr).2.1
        · exact absurd rfl hx
      | fin neg b => exact F32.parse_display neg b hr
    have h0 := key [] (.inl rfl)
    rw [List.append_nil] at h0
    exact ⟨h0, fun r => key _ (.inr ⟨r, rfl⟩), ((C94_sane P).2 x).1⟩

/-- **C94**: so the hypothesis about positions in the theorems about components that are read back is that no coordinate is minus infinity. -/
theorem C94_good_position (lat lon : F32) : @GoodGeo (ieee P) (@Geo.mk (ieee P) lat lon) ↔ lat ≠ .inf true ∧ lon ≠ .inf true :=
  and_congr (C94_number P lat) (C94_number P lon)

/-- **C94**: a position is read back from its text if neither coordinate is minus infinity; otherwise reading its text is an error. -/
theorem C94_position (lat lon : F32) (l : ContentLine) (hl : l.value = @Geo.toStr (ieee P) (@Geo.mk (ieee P) lat lon)) :
    (lat ≠ .inf true → lon ≠ .inf true → @geo (ieee P) l = .ok (@Geo.mk (ieee P) lat lon)) ∧
    (lat = .inf true ∨ lon = .inf true → ∃ e, @geo (ieee P) l = .err e) := by
  have hv : l.value = F32.display lat ++ ';' :: F32.display lon := hl
  have h1 : lat ≠ .inf true → F32.parse (F32.display lat ++ ';' :: F32.display lon) = some (lat, ';' :: F32.display lon) :=
    fun h => ((C94_number P lat).2 h).2.1 _
  have h2 : lon ≠ .inf true → F32.parse (F32.display lon) = some (lon, []) := fun h => ((C94_number P lon).2 h).1
  have h3 : F32.parse (F32.display (.inf true) ++ ';' :: F32.display lon) = none := (F32.read_special (.inr ⟨_, rfl⟩)).2.2
  have h4 : F32.parse (F32.display (.inf true)) = none := by have := (F32.read_special (.inl rfl)).2.2; rwa [List.append_nil] at this
  have f1 : ∀ i x r, F32.parse i = some (x, r) → @float (ieee P) i = .ok r x := fun i x r h => @float_ok (ieee P) i r x h
  have f2 : ∀ i, F32.parse i = none → @float (ieee P) i = .err := fun i h => by unfold float; rw [show @Platform.floatParse (ieee P) i = none from h]
  constructor
  · intro ha hb
    unfold geo
    rw [hv]
    simp only [Nom.map, Nom.separatedPair, Nom.pair, Nom.preceded, f1 _ _ _ (h1 ha), Nom.char, if_pos, f1 _ _ _ (h2 hb)]
    rfl
  · intro h
    refine ⟨.parser, ?_⟩
    unfold geo
    rw [hv]
    by_cases ha : lat = .inf true
    · subst ha
      simp only [Nom.map, Nom.separatedPair, Nom.pair, Nom.preceded, f2 _ h3]
      rfl
    · have hb : lon = .inf true := h.resolve_left ha
      subst hb
      simp only [Nom.map, Nom.separatedPair, Nom.pair, Nom.preceded, f1 _ _ _ (h1 ha), Nom.char, if_pos, f2 _ h4]
      rfl

/-- **C94**: so a position can be read that is not read again once it was written. -/
theorem C94_position_lost : ∃ (l : ContentLine) (g : @Geo (ieee P)), @geo (ieee P) l = .ok g ∧ ∀ l', l'.value = @Geo.toStr (ieee P) g → ∃ e, @geo (ieee P) l' = .err e := by
  refine ⟨⟨c!"GEO", [], c!"-1e39;0"⟩, @Geo.mk (ieee P) (.inf true) (.fin false ⟨0, by decide⟩), ?_, fun l' h => (C94_position P _ _ l' h).2 (.inl rfl)⟩
  have e1 : F32.parse c!"-1e39;0" = some (.inf true, c!";0") := by decide +kernel
  have e2 : F32.parse c!"0" = some (.fin false ⟨0, by decide⟩, []) := by decide +kernel
  have f1 : ∀ i x r, F32.parse i = some (x, r) → @float (ieee P) i = .ok r x := fun i x r h => @float_ok (ieee P) i r x h
  unfold geo
  simp only [Nom.map, Nom.separatedPair, Nom.pair, Nom.preceded, f1 _ _ _ e1, Nom.char, if_pos, f1 _ _ _ e2, strLit]
  rfl

/-- **C94**: a number with at most six digits (of the size of normal floats) is shown as it was read, up to zeros at its end. -/
theorem C94_six_digits (neg : Bool) (c : Nat) (e : Int) (hc : c < 10 ^ 6) (b : Fin f32Inf) (hb : 2 ^ 23 ≤ b.val) (h : RoundsTo c e b) :
    ∃ t c' k, (ieee P).floatShow (.fin neg b) = signText neg ++ t ∧ PlainDecimal t c' (e + (k : Nat)) ∧ c = c' * 10 ^ k := by
  have h0 : b.val ≠ 0 := by have : 0 < 2 ^ 23 := by decide
                            omega
  have hn := F32.nearestDecimal_iff.2 h
  have hc' : c < 2 ^ 23 := Nat.lt_of_lt_of_le hc (by decide)
  obtain ⟨h1, h2⟩ := F32.shortest_exact b.isLt h0 hn (F32.dense_digits hb hn hc')
  refine ⟨_, (F32.shortest b.val).1, ((F32.shortest b.val).2 - e).toNat, ?_, F32.decimalText_plain (.inl ?_), h2⟩
  · show F32.display (.fin neg b) = _
    rw [F32.display, if_neg h0, show e + ((((F32.shortest b.val).2 - e).toNat : Nat) : Int) = (F32.shortest b.val).2 by omega]
    rfl
  · intro h
    exact F32.shortest_end b.isLt h0 (by rw [h])

/-- **C94**: a coordinate below 1000 with at most four decimals is shown as it was read, up to zeros at its end. -/
theorem C94_four_decimals (neg : Bool) (c : Nat) (hc : c < 10 ^ 7) (h0 : c ≠ 0) (t : Str) (ht : PlainDecimal t c (-4)) :
    ∃ x t' c' k, (ieee P).floatParse (signText neg ++ t) = some (x, []) ∧ (ieee P).floatShow x = signText neg ++ t' ∧ PlainDecimal t' c' (-4 + (k : Nat)) ∧ c = c' * 10 ^ k := by
  have hlt : F32.nearestDecimal c (-4) < f32Inf := by
    have h1 : F32.nearestDecimal (10 ^ 7) (-4) < f32Inf := by decide +kernel
    have h2 := F32.nearestDecimal_mono (Nat.le_of_lt hc) (-4)
    omega
  have hne : F32.nearestDecimal c (-4) ≠ 0 := by
    have h1 : 0 < F32.nearestDecimal 1 (-4) := by decide +kernel
    have h2 := F32.nearestDecimal_mono (show 1 ≤ c by omega) (-4)
    omega
  obtain ⟨h1, h2⟩ := F32.shortest_exact hlt hne rfl (F32.dense_decimals rfl hc)
  refine ⟨.fin neg ⟨_, hlt⟩, _, (F32.shortest (F32.nearestDecimal c (-4))).1, ((F32.shortest (F32.nearestDecimal c (-4))).2 - (-4)).toNat, ?_, ?_, F32.decimalText_plain (.inl ?_), h2⟩
  · have := F32.parse_plain ht (.inl rfl) neg
    rw [List.append_nil] at this
    refine this.trans ?_
    unfold F32.ofBits
    rw [dif_pos hlt]
  · show F32.display (.fin neg ⟨_, hlt⟩) = _
    rw [F32.display, if_neg hne]
    rw [show (-4 : Int) + ((((F32.shortest (F32.nearestDecimal c (-4))).2 - (-4)).toNat : Nat) : Int) = (F32.shortest (F32.nearestDecimal c (-4))).2 by omega]
    rfl
  · intro h
    exact F32.shortest_end hlt hne (by rw [h])

/-! ## Request statuses -/

/-- **C94**: the code of a request status is read back as it was if it is a number that some tenths are read as, infinity or not a number. -/
theorem C94_status (x : F32) : @GoodFloat (ieee P) (ieee P).floatShow1 x ↔ x = .nan ∨ x = .inf false ∨ ∃ neg b, x = .fin neg b ∧ ∃ c, RoundsTo c (-1) b := by
  constructor
  · rintro ⟨h, -⟩
    cases x with
    | nan => exact .inl rfl
    | inf neg =>
      cases neg
      · exact .inr (.inl rfl)
      · have := (F32.read_special (.inl rfl)).2.2
        rw [List.append_nil] at this
        exact absurd (h.symm.trans this) (by simp)
    | fin neg b =>
      refine .inr (.inr ⟨neg, b, rfl, F32.tenths b.val, F32.nearestDecimal_iff.1 ?_⟩)
      have h1 := F32.parse_display1 neg b (.inl rfl)
      rw [List.append_nil] at h1
      have h2 : F32.fin neg b = F32.ofBits neg (F32.nearestDecimal (F32.tenths b.val) (-1)) := congrArg Prod.fst (Option.some.inj (h.symm.trans h1))
      unfold F32.ofBits at h2
      split at h2
      · exact (congrArg Fin.val (F32.fin.inj h2).2).symm
      · cases h2
  · intro hx
    have key : ∀ r, F32.Ends r → F32.parse (F32.display1 x ++ r) = some (x, r) := by
      intro r hr
      rcases hx with rfl | rfl | ⟨neg, b, rfl, c, hc⟩
      · exact (F32.read_special hr).1
      · exact (F32.read_special hr).2.1
      · rw [F32.parse_display1 neg b hr, F32.tenths_back (F32.nearestDecimal_iff.2 hc), F32.ofBits_fin]
    have h0 := key [] (.inl rfl)
    rw [List.append_nil] at h0
    exact ⟨h0, fun r => key _ (.inr ⟨r, rfl⟩), ((C94_sane P).2 x).2⟩

/-- **C94**: a code with one decimal and at most seven digits is written as it was read. -/
theorem C94_code (neg : Bool) (c : Nat) (hc : c < 10 ^ 7) (t : Str) (ht : PlainDecimal t c (-1)) :
    ∃ x, (ieee P).floatParse (signText neg ++ t) = some (x, []) ∧ (ieee P).floatShow1 x = signText neg ++ t := by
  obtain ⟨h1, h2⟩ := F32.tenths_codes hc
  refine ⟨.fin neg ⟨_, h1⟩, ?_, ?_⟩
  · have := F32.parse_plain ht (.inl rfl) neg
    rw [List.append_nil] at this
    refine this.trans ?_
    unfold F32.ofBits
    rw [dif_pos h1]
  · show F32.minus neg ++ F32.decimalText (F32.tenths (F32.nearestDecimal c (-1))) (-1) = _
    rw [h2, F32.plain_unique (F32.decimalText_plain (.inr (by decide))) ht]
    rfl

/-- **C94**: a code that is read from what was written is written in the same way, and read back as it is. -/
theorem C94_stable (neg : Bool) (b : Fin f32Inf) : ∃ y, (ieee P).floatParse ((ieee P).floatShow1 (.fin neg b)) = some (y, []) ∧
    (ieee P).floatShow1 y = (ieee P).floatShow1 (.fin neg b) ∧ @GoodFloat (ieee P) (ieee P).floatShow1 y := by
  obtain ⟨h1, h2⟩ := F32.tenths_stable b.isLt
  refine ⟨.fin neg ⟨_, h1⟩, ?_, ?_, (C94_status P _).2 (.inr (.inr ⟨neg, _, rfl, F32.tenths b.val, F32.nearestDecimal_iff.1 rfl⟩))⟩
  · have := F32.parse_display1 neg b (.inl rfl)
    rw [List.append_nil] at this
    refine this.trans ?_
    unfold F32.ofBits
    rw [dif_pos h1]
  · show F32.minus neg ++ F32.decimalText (F32.tenths (F32.nearestDecimal (F32.tenths b.val) (-1))) (-1) = _
    rw [h2]
    rfl

/-! ## Equality -/

/-- The equality of floats. -/
@[reducible] def ieeeEq : @FloatEq (ieee P) :=
  @FloatEq.mk (ieee P) F32.eq
    (by
      intro x y h
      cases x <;> cases y <;> simp only [F32.eq, Bool.false_eq_true, Bool.and_eq_true, Bool.or_eq_true, beq_iff_eq] at h ⊢
      · exact h.symm
      · exact ⟨h.1.symm, h.2.elim (fun h => .inl h.symm) fun h' => .inr (h.1 ▸ h')⟩)
    (by
      intro x y z h g
      cases x <;> cases y <;> cases z <;> simp only [F32.eq, Bool.false_eq_true, Bool.and_eq_true, Bool.or_eq_true, beq_iff_eq] at h g ⊢
      · exact h.trans g
      · refine ⟨h.1.trans g.1, ?_⟩
        rcases h.2 with h2 | h2
        · rcases g.2 with g2 | g2
          · exact .inl (h2.trans g2)
          · exact .inr (h.1.trans g2)
        · exact .inr h2)

/-- **C94**: floats that are equal are shown in the same way, except zero and minus zero; no NaN is equal to itself. -/
theorem C94_equal (x y : F32) (h : (ieeeEq P).feq x y = true) : x = y ∨ ∃ neg, x = .fin neg ⟨0, by decide⟩ ∧ y = .fin (!neg) ⟨0, by decide⟩ := by
  change F32.eq x y = true at h
  cases x <;> cases y <;> simp only [F32.eq, Bool.false_eq_true, Bool.and_eq_true, Bool.or_eq_true, beq_iff_eq] at h
  · rw [h]; exact .inl rfl
  · rename_i n1 b1 n2 b2
    have hb : b1 = b2 := Fin.ext h.1
    subst hb
    by_cases hn : n1 = n2
    · rw [hn]; exact .inl rfl
    · right
      have h0 : b1 = ⟨0, by decide⟩ := Fin.ext (h.2.resolve_left hn)
      subst h0
      refine ⟨n1, rfl, ?_⟩
      have : n2 = !n1 := by cases n1 <;> cases n2 <;> simp at hn ⊢
      rw [this]

/-- **C94**: zero and minus zero are equal and shown differently. -/
theorem C94_zeros : (ieeeEq P).feq (.fin false ⟨0, by decide⟩) (.fin true ⟨0, by decide⟩) = true ∧
    (ieee P).floatShow (.fin false ⟨0, by decide⟩) ≠ (ieee P).floatShow (.fin true ⟨0, by decide⟩) ∧ (ieeeEq P).feq .nan .nan = false :=
  ⟨rfl, by show c!"0" ≠ c!"-0"; decide, rfl⟩

end

/-! ## Examples -/

section

@[reducible, local instance] def exampleIeee : Platform := ieee utc

/-- The text of the position that is read from a text. -/
def exampleRewritten (s : Str) : Option Str := (geo ⟨c!"GEO", [], s⟩ |> fun r => match r with | .ok g => some g.toStr | _ => none)

/-- The text of the code that is read from a text. -/
def exampleCode (s : Str) : Option Str := (F32.parse s).map fun p => F32.display1 p.1

/-- Positions keep their digits. -/
example : exampleRewritten c!"48.85299;2.34990" = some c!"48.85299;2.3499" := by decide +kernel

/-- The position in RFC 5545 does not: 32-bit floats are too coarse for its six decimals. -/
example : exampleRewritten c!"37.386013;-122.082932" = some c!"37.386013;-122.08293" := by decide +kernel

/-- Other numbers are read as well. -/
example : exampleRewritten c!"NaN;INFINITY" = some c!"NaN;inf" ∧ exampleRewritten c!"1e3;-.5E+1" = some c!"1000;-5" ∧ exampleRewritten c!"1e;2" = none := by decide +kernel

/-- The smallest positive number, and the greatest one. -/
example : F32.display (.fin false ⟨1, by decide⟩) = c!"0.000000000000000000000000000000000000000000001" ∧
    F32.display (.fin true ⟨f32Inf - 1, by decide⟩) = c!"-340282350000000000000000000000000000000" := by decide +kernel

/-- Codes keep one decimal; between two of them the even one is taken. -/
example : exampleCode c!"2.0" = some c!"2.0" ∧ exampleCode c!"3.14" = some c!"3.1" ∧ exampleCode c!"0.25" = some c!"0.2" ∧ exampleCode c!"-0.05" = some c!"-0.1" := by decide +kernel

/-- 2.8 is a number that tenths are read as, 2.25 is not. -/
example : RoundsTo 28 (-1) 0x40333333 ∧ ∀ c, ¬ RoundsTo c (-1) 0x40100000 := by
  refine ⟨F32.nearestDecimal_iff.1 (by decide +kernel), fun c hc => ?_⟩
  have h1 := F32.tenths_back (F32.nearestDecimal_iff.2 hc)
  exact absurd h1 (by decide +kernel)

/-- 48.853 is rounded to a normal float. -/
example : RoundsTo 48853 (-3) 0x42436979 ∧ 2 ^ 23 ≤ 0x42436979 ∧ 0x42436979 < f32Inf := ⟨F32.nearestDecimal_iff.1 (by decide +kernel), by decide, by decide⟩

/-- A code and a coordinate as plain decimal numbers. -/
example : PlainDecimal c!"2.0" 20 (-1) ∧ PlainDecimal c!"122.0829" 1220829 (-4) := by
  refine ⟨.inr ⟨by decide, c!"2", c!"0", rfl, ?_⟩, .inr ⟨by decide, c!"122", c!"0829", rfl, ?_⟩⟩ <;> simp only [Digits] <;> decide

/-- An event at a latitude on the meridian of Greenwich. -/
def exampleOn (lat : F32) : VEvent := { VEvent.default with geo := some ⟨lat, .fin false ⟨0, by decide⟩⟩ }

/-- Events at zero and at minus zero are equal and written differently. -/
example : @PEq.eq VEvent (@instPEqVEvent exampleIeee (ieeeEq utc)) (exampleOn (.fin false ⟨0, by decide⟩)) (exampleOn (.fin true ⟨0, by decide⟩)) = true ∧
    Ser.ical (exampleOn (.fin false ⟨0, by decide⟩)) ≠ Ser.ical (exampleOn (.fin true ⟨0, by decide⟩)) := by decide +kernel

end

end Ikal
