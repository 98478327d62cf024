import Verif.Spec.Format
import Verif.Lemmas.DateTime

namespace Ikal
open Spec

namespace Format

/-- All directives, without `%`. -/
def known : List Str := (dateDirectives ++ timeDirectives ++ zoneDirectives).map List.tail

theorem letter_known (c : Char) : FormatItem.error ∈ letter c ∨ [c] ∈ known := by
  unfold letter
  split <;> first | (left; exact List.mem_singleton.2 rfl) | (right; decide)

theorem repad_known (p : Pad) (c : Char) :
    FormatItem.error ∈ repad p (letter c) ∨ (match p with | .none => '-' | .zero => '0' | .space => '_') :: [c] ∈ known := by
  unfold letter
  cases p <;> split <;> first | (left; exact List.mem_singleton.2 rfl) | (right; decide)

theorem directive_known (r : Str) : FormatItem.error ∈ (directive r).1 ∨ ∃ p ∈ known, r = p ++ (directive r).2 := by
  unfold directive
  split
  · left; simp
  · rename_i c r
    exact (repad_known .none c).imp id fun h => ⟨_, h, rfl⟩
  · rename_i c r
    exact (repad_known .zero c).imp id fun h => ⟨_, h, rfl⟩
  · rename_i c r
    exact (repad_known .space c).imp id fun h => ⟨_, h, rfl⟩
  · left; simp
  · split
    · right; exact ⟨c!":::z", by decide, rfl⟩
    · right; exact ⟨c!"::z", by decide, rfl⟩
    · right; exact ⟨c!":z", by decide, rfl⟩
    · left; simp
  · split
    · right; exact ⟨c!".f", by decide, rfl⟩
    · right; exact ⟨c!".3f", by decide, rfl⟩
    · right; exact ⟨c!".6f", by decide, rfl⟩
    · right; exact ⟨c!".9f", by decide, rfl⟩
    · left; simp
  · split
    · right; exact ⟨c!"3f", by decide, rfl⟩
    · left; simp
  · split
    · right; exact ⟨c!"6f", by decide, rfl⟩
    · left; simp
  · split
    · right; exact ⟨c!"9f", by decide, rfl⟩
    · left; simp
  · rename_i c r _ _ _ _ _ _ _ _ _
    exact (letter_known c).imp id fun h => ⟨_, h, rfl⟩

theorem directive_append {p : Str} (hp : p ∈ known) (g : Str) : directive (p ++ g) = ((directive p).1, g) := by
  have : ∀ p ∈ known, directive (p ++ g) = ((directive p).1, g) := by
    simp only [known, dateDirectives, timeDirectives, zoneDirectives, List.cons_append, List.nil_append, List.map_cons, List.map_nil,
      List.forall_mem_cons, List.tail_cons]
    repeat' apply And.intro
    all_goals first | rfl | (intro _ h; cases h)
  exact this p hp

theorem directive_self {p : Str} (hp : p ∈ known) : (directive p).2 = [] := by
  have := directive_append hp []
  rw [List.append_nil] at this
  rw [this]

theorem directive_shorter (r : Str) : (directive r).2.length ≤ r.length := by
  unfold directive
  repeat' split
  all_goals simp only [List.length_cons]
  all_goals omega

theorem itemsN_enough : ∀ (n m : Nat) (s : Str), s.length ≤ n → s.length ≤ m → itemsN n s = itemsN m s
  | 0, 0, _, _, _ => rfl
  | 0, m + 1, [], _, _ => by simp [itemsN]
  | n + 1, 0, [], _, _ => by simp [itemsN]
  | n + 1, m + 1, [], _, _ => by simp [itemsN]
  | n + 1, m + 1, c :: r, h1, h2 => by
    simp only [List.length_cons] at h1 h2
    by_cases hc : c = '%'
    · subst hc
      have := directive_shorter r
      simp only [itemsN]
      rw [itemsN_enough n m _ (by omega) (by omega)]
    · simp only [itemsN]
      rw [itemsN_enough n m r (by omega) (by omega)]

theorem items_nil : items [] = [] := rfl

theorem items_char {c : Char} (h : c ≠ '%') (r : Str) : items (c :: r) = .char c :: items r := by
  simp only [items, List.length_cons, itemsN]

theorem items_directive (r : Str) : items ('%' :: r) = (directive r).1 ++ items (directive r).2 := by
  simp only [items, List.length_cons, itemsN]
  rw [itemsN_enough _ _ _ (directive_shorter r) (Nat.le_refl _)]

theorem items_known {p : Str} (hp : p ∈ known) (g : Str) : items ('%' :: p ++ g) = items ('%' :: p) ++ items g := by
  rw [List.cons_append, items_directive, directive_append hp, items_directive, directive_self hp, items_nil, List.append_nil]

theorem items_append : ∀ (n : Nat) (f g : Str), f.length ≤ n → FormatItem.error ∉ items f → items (f ++ g) = items f ++ items g
  | _, [], g, _, _ => by simp [items_nil]
  | n + 1, c :: r, g, hn, he => by
    simp only [List.length_cons] at hn
    by_cases hc : c = '%'
    · subst hc
      rw [items_directive] at he
      rcases directive_known r with h | ⟨p, hp, h⟩
      · exact absurd (List.mem_append_left _ h) he
      · have hs := directive_shorter r
        have h2 : items ((directive r).2 ++ g) = items (directive r).2 ++ items g :=
          items_append n _ g (by omega) fun h => he (List.mem_append_right _ h)
        have e1 : '%' :: r = '%' :: p ++ (directive r).2 := by rw [List.cons_append, ← h]
        rw [e1, List.append_assoc, items_known hp, items_known hp, h2, List.append_assoc]
    · rw [List.cons_append, items_char hc, items_char hc, items_append n r g (by omega), List.cons_append]
      rw [items_char hc] at he
      exact fun h => he (List.mem_cons_of_mem _ h)

variable [Centuries]

theorem writeItems_append (a : FormatArgs) : ∀ (is js : List FormatItem),
    writeItems a (is ++ js) = (writeItems a is).bind fun x => (writeItems a js).map (x ++ ·)
  | [], js => by simp [writeItems]
  | i :: is, js => by
    simp only [List.cons_append, writeItems, writeItems_append a is js]
    cases writeItem a i <;> cases writeItems a is <;> cases writeItems a js <;> simp

theorem writeItems_error (a : FormatArgs) : ∀ (is : List FormatItem), FormatItem.error ∈ is → writeItems a is = none
  | i :: is, h => by
    rcases List.mem_cons.1 h with h | h
    · subst h; simp [writeItems, writeItem]
    · simp only [writeItems, writeItems_error a is h]
      cases writeItem a i <;> rfl

end Format

open Format


theorem natStrGo_lead (f n : Nat) (h : n < f) : (natStrGo f n).head? = some '0' → natStrGo f n = ['0'] := by
  induction f generalizing n with
  | zero => omega
  | succ f ih =>
    unfold natStrGo
    split
    · intro h0
      simpa using h0
    · rename_i hn
      intro h0
      obtain ⟨_, hne, hv⟩ := natStrGo_spec f (n / 10) (by omega)
      have e : (natStrGo f (n / 10) ++ [digitChar (n % 10)]).head? = (natStrGo f (n / 10)).head? := by
        cases hx : natStrGo f (n / 10) with
        | nil => exact absurd hx hne
        | cons a l => rfl
      rw [e] at h0
      rw [ih _ (by omega) h0] at hv
      rw [show digitsVal ['0'] = 0 from by decide] at hv
      omega

theorem numeral_natStr (n : Nat) : Numeral n (natStr n) :=
  ⟨natStr_isDigits n, decimal_natStr n, natStrGo_lead _ n (by omega)⟩

theorem natStr_length {n w : Nat} (hw : 1 ≤ w) (h : n < 10 ^ w) : (natStr n).length ≤ w := by
  have : ∀ f n w, n < f → 1 ≤ w → n < 10 ^ w → (natStrGo f n).length ≤ w := by
    intro f
    induction f with
    | zero => intro n w h; omega
    | succ f ih =>
      intro n w hf hw h
      unfold natStrGo
      split
      · simpa using hw
      · rename_i hn
        obtain ⟨w, rfl⟩ : ∃ v, w = v + 1 := ⟨w - 1, by omega⟩
        rw [Nat.pow_succ] at h
        have hw1 : 1 ≤ w := by
          cases w with
          | zero => simp at h; omega
          | succ w => omega
        have := ih (n / 10) w (by omega) hw1 (by omega)
        simp only [List.length_append, List.length_singleton]
        omega
  exact this _ n w (by omega) hw h

theorem padded_padTo (c : Char) {w v : Nat} (hw : 1 ≤ w) (h : v < 10 ^ w) : Padded c w v (padTo c w (natStr v)) := by
  refine ⟨_, _, numeral_natStr v, rfl, ?_⟩
  have := natStr_length hw h
  simp only [padTo, List.length_append, List.length_replicate]
  omega

theorem pad2_eq {n : Nat} (h : n < 100) : padTo '0' 2 (natStr n) = pad2 n := by
  have : ∀ n : Fin 100, padTo '0' 2 (natStr n) = pad2 n := by decide +kernel
  exact this ⟨n, h⟩

theorem digitVal_inj {a b : Char} (ha : a.isDigit = true) (hb : b.isDigit = true) (h : digitVal a = digitVal b) : a = b := by
  rw [isDigit_iff] at ha hb
  have h1 := ha.1; have h2 := ha.2; have h3 := hb.1; have h4 := hb.2
  simp only [Char.le_def, UInt32.le_iff_toNat_le] at h1 h2 h3 h4
  apply Char.ext
  apply UInt32.toNat_inj.1
  have e : digitVal a = a.val.toNat - 48 ∧ digitVal b = b.val.toNat - 48 := ⟨rfl, rfl⟩
  rw [e.1, e.2] at h
  have : ('0' : Char).val.toNat = 48 := rfl
  omega

theorem digits_inj : ∀ {a b : Str}, (∀ c ∈ a, c.isDigit = true) → (∀ c ∈ b, c.isDigit = true) → a.length = b.length → digitsVal a = digitsVal b → a = b
  | [], [], _, _, _, _ => rfl
  | c :: a, d :: b, ha, hb, hl, hv => by
    simp only [List.length_cons, Nat.add_right_cancel_iff] at hl
    have ha' : ∀ c ∈ a, c.isDigit = true := fun x hx => ha x (List.mem_cons_of_mem _ hx)
    have hb' : ∀ c ∈ b, c.isDigit = true := fun x hx => hb x (List.mem_cons_of_mem _ hx)
    have h1 := digitsVal_lt a ha'
    have h2 := digitsVal_lt b hb'
    rw [digitsVal_cons, digitsVal_cons, ← hl] at hv
    rw [← hl] at h2
    have e : digitVal c = digitVal d := by
      have hp : 0 < 10 ^ a.length := Nat.pow_pos (by decide)
      have e1 : (digitVal c * 10 ^ a.length + digitsVal a) / 10 ^ a.length = digitVal c := by
        rw [Nat.mul_comm, Nat.mul_add_div hp, Nat.div_eq_of_lt h1, Nat.add_zero]
      have e2 : (digitVal d * 10 ^ a.length + digitsVal b) / 10 ^ a.length = digitVal d := by
        rw [Nat.mul_comm, Nat.mul_add_div hp, Nat.div_eq_of_lt h2, Nat.add_zero]
      rw [← e1, ← e2, hv]
    rw [e] at hv
    rw [digitVal_inj (ha c (List.mem_cons_self ..)) (hb d (List.mem_cons_self ..)) e, digits_inj ha' hb' hl (by omega)]

theorem digitsVal_zeros (k : Nat) (s : Str) : digitsVal (List.replicate k '0' ++ s) = digitsVal s := by
  induction k with
  | zero => rfl
  | succ k ih => rw [List.replicate_succ, List.cons_append, digitsVal_cons, ih]; simp [show digitVal '0' = 0 from rfl]

theorem pad4_eq {n : Nat} (h : n < 10000) : padTo '0' 4 (natStr n) = pad4 n := by
  apply digits_inj
  · intro c hc
    rcases List.mem_append.1 hc with hc | hc
    · rw [List.eq_of_mem_replicate hc]; rfl
    · exact natStr_digits n c hc
  · exact pad4_digits n
  · obtain ⟨_, _, _, _, h⟩ := padded_padTo '0' (w := 4) (v := n) (by decide) (by omega)
    exact h
  · rw [padTo, digitsVal_zeros, digitsVal_natStr, digitsVal_pad4 h]

theorem year_eq (y : Int) : places 4 y (¬ (0 ≤ y ∧ y < 10000)) .zero = yearStr y := by
  unfold places yearStr
  by_cases h : 0 ≤ y ∧ y < 10000
  · have h1 : ¬ y < 0 := by omega
    have h2 : y.natAbs = y.toNat := by omega
    have h3 : y ≤ 9999 := by omega
    simp [h, h1, h2, h3, pad4_eq (n := y.toNat) (by omega)]
  · have h3 : ¬ (0 ≤ y ∧ y ≤ 9999) := by omega
    simp only [h, not_false_eq_true, decide_true, if_true, h3, if_false]
    have e : (if y.natAbs ≤ 9999 then pad4 y.natAbs else natStr y.natAbs) = padTo '0' 4 (natStr y.natAbs) := by
      split
      · rw [pad4_eq (by omega)]
      · rename_i hn
        have : ¬ (natStr y.natAbs).length < 4 := fun hl => by
          have h1 := digitsVal_lt _ (natStr_digits y.natAbs)
          rw [digitsVal_natStr] at h1
          have : (10 : Nat) ^ (natStr y.natAbs).length ≤ 10 ^ 4 := Nat.pow_le_pow_right (by decide) (by omega)
          omega
        rw [padTo, show 4 - (natStr y.natAbs).length = 0 by omega]; rfl
    rw [e]
    split <;> rfl

theorem piece_items {p : Str} (hp : Piece p) : (∃ c, c ≠ '%' ∧ p = [c]) ∨ ∃ q, p = '%' :: q ∧ q ∈ known := by
  have : ∀ p ∈ dateDirectives ++ timeDirectives ++ zoneDirectives, ∃ q, p = '%' :: q ∧ q ∈ known := by
    intro p hp
    refine ⟨p.tail, ?_, List.mem_map_of_mem hp⟩
    have : ∀ p ∈ dateDirectives ++ timeDirectives ++ zoneDirectives, p = '%' :: p.tail := by decide +kernel
    exact this p hp
  rcases hp with h | h | h | h
  · exact .inl h
  all_goals exact .inr (this p (by simp [h]))

theorem piece_append {p : Str} (hp : Piece p) (g : Str) : items (p ++ g) = items p ++ items g := by
  rcases piece_items hp with ⟨c, hc, rfl⟩ | ⟨q, rfl, hq⟩
  · rw [List.cons_append, List.nil_append, items_char hc, items_char hc]; rfl
  · exact items_known hq g

theorem pieces_append {f : Str} {ps : List Str} (h : Pieces f ps) (g : Str) : items (f ++ g) = items f ++ items g := by
  obtain ⟨rfl, h⟩ := h
  induction ps with
  | nil => simp [items_nil]
  | cons p ps ih =>
    rw [List.flatten_cons, List.append_assoc, piece_append (h p (List.mem_cons_self ..)), ih (fun q hq => h q (List.mem_cons_of_mem _ hq)),
      piece_append (h p (List.mem_cons_self ..)), List.append_assoc]

theorem items_pieces : ∀ (n : Nat) (f : Str), f.length ≤ n → FormatItem.error ∉ items f → ∃ ps, Pieces f ps
  | _, [], _, _ => ⟨[], rfl, fun _ h => by cases h⟩
  | n + 1, c :: r, hn, he => by
    simp only [List.length_cons] at hn
    by_cases hc : c = '%'
    · subst hc
      rw [items_directive] at he
      rcases directive_known r with h | ⟨p, hp, h⟩
      · exact absurd (List.mem_append_left _ h) he
      · have hs := directive_shorter r
        obtain ⟨ps, h1, h2⟩ := items_pieces n (directive r).2 (by omega) fun h => he (List.mem_append_right _ h)
        refine ⟨('%' :: p) :: ps, ?_, ?_⟩
        · rw [List.flatten_cons, ← h1, List.cons_append, ← h]
        · intro q hq
          rcases List.mem_cons.1 hq with rfl | hq
          · have : ∀ p ∈ known, '%' :: p ∈ dateDirectives ∨ '%' :: p ∈ timeDirectives ∨ '%' :: p ∈ zoneDirectives := by decide +kernel
            exact .inr (this p hp)
          · exact h2 q hq
    · rw [items_char hc] at he
      obtain ⟨ps, h1, h2⟩ := items_pieces n r (by omega) fun h => he (List.mem_cons_of_mem _ h)
      refine ⟨[c] :: ps, ?_, ?_⟩
      · rw [List.flatten_cons, ← h1]; rfl
      · intro q hq
        rcases List.mem_cons.1 hq with rfl | hq
        · exact .inl ⟨c, hc, rfl⟩
        · exact h2 q hq

theorem weekday_of {d : NaiveDate} (h : RealDate d) {k : Nat} (hk : DayOfWeek d k) : Format.weekday d = k := by
  have hd := (NaiveDate.ok_iff d).2 h
  have hm : (⟨2024, 1, 1⟩ : NaiveDate).Ok := by unfold NaiveDate.Ok; decide
  have e : (⟨2024, 1, 1⟩ : NaiveDate).toDays = 739251 := by decide +kernel
  obtain ⟨h7, n, ⟨hn, h0⟩ | ⟨hn, h0⟩⟩ := hk
  · obtain ⟨_, h2⟩ := NaiveDate.daysLater_spec n _ hm
    rw [hn, e] at h2
    unfold Format.weekday
    omega
  · obtain ⟨_, h2⟩ := NaiveDate.daysLater_spec n _ hd
    rw [hn, e] at h2
    unfold Format.weekday
    omega

/-! ### Weeks -/

theorem first_ok (y : Int) : (⟨y, 1, 1⟩ : NaiveDate).Ok := (NaiveDate.ok_iff _).2 ⟨Nat.le_refl 1, (by decide : 1 ≤ 12), Nat.le_refl 1, by
  show 1 ≤ monthLength y 1
  simp [monthLength]⟩

theorem first_days (y : Int) : (⟨y, 1, 1⟩ : NaiveDate).toDays = NaiveDate.daysBeforeYear y := by
  unfold NaiveDate.toDays
  have : NaiveDate.daysBeforeMonth y 1 = 0 := rfl
  simp only [this]
  omega

theorem toDays_ordinal (d : NaiveDate) : d.toDays = NaiveDate.daysBeforeYear d.year + Format.ordinal d - 1 := by
  unfold NaiveDate.toDays Format.ordinal
  omega

theorem ordinal_pos {d : NaiveDate} (h : d.Ok) : 1 ≤ Format.ordinal d := by
  have := h.2.2.1
  unfold Format.ordinal
  omega

theorem weekFrom_eq {d : NaiveDate} (h : RealDate d) {k v : Nat} (hv : WeekFrom k d v) : Format.weeksFrom d k = v := by
  have hd := (NaiveDate.ok_iff d).2 h
  obtain ⟨f, i, hi, hf, hk, hn⟩ := hv
  obtain ⟨h1, h2⟩ := NaiveDate.daysLater_spec i _ (first_ok d.year)
  rw [← hf] at h1 h2
  rw [first_days] at h2
  have hw := weekday_of ((NaiveDate.ok_iff f).1 h1) hk
  have ho := toDays_ordinal d
  have hp := ordinal_pos hd
  unfold Format.weekday at hw
  unfold Format.weeksFrom Format.weekday
  rcases hn with ⟨rfl, n, hn, e⟩ | ⟨n, e, rfl⟩
  · obtain ⟨_, h4⟩ := NaiveDate.daysLater_spec n _ hd
    rw [e] at h4
    omega
  · obtain ⟨_, h4⟩ := NaiveDate.daysLater_spec n _ h1
    rw [e] at h4
    omega

theorem newYear_eq (y : Int) : Format.newYear y = ((NaiveDate.daysBeforeYear y + 5) % 7).toNat := by
  unfold Format.newYear Format.weekday
  rw [first_days]

set_option maxHeartbeats 1000000 in
theorem isoWeek_eq {d : NaiveDate} (h : RealDate d) {y : Int} {v : Nat} (hv : IsoWeek d y v) : Format.isoWeek d = (y, v) := by
  have hd := (NaiveDate.ok_iff d).2 h
  obtain ⟨k, t, hk, ht, hkt, rfl, n, hn, rfl⟩ := hv
  have hw := weekday_of h hk
  have hk7 := hk.1
  replace ht := (NaiveDate.ok_iff t).2 ht
  have e : t.toDays = d.toDays + 3 - k := by
    rcases hkt with ⟨h3, e⟩ | ⟨h3, e⟩
    · have := (NaiveDate.daysLater_spec (3 - k) d hd).2
      rw [e] at this; omega
    · have := (NaiveDate.daysLater_spec (k - 3) t ht).2
      rw [e] at this; omega
  have en := (NaiveDate.daysLater_spec n _ (first_ok t.year)).2
  rw [hn, first_days] at en
  have hod := toDays_ordinal d
  have hot := toDays_ordinal t
  have hpd := ordinal_pos hd
  have hpt := ordinal_pos ht
  have hld : Format.ordinal d ≤ 365 + NaiveDate.leapNat d.year := hd.ordinal
  have hlt : Format.ordinal t ≤ 365 + NaiveDate.leapNat t.year := ht.ordinal
  have hl1 : ∀ y, NaiveDate.leapNat y ≤ 1 := fun y => by unfold NaiveDate.leapNat; split <;> omega
  have hlp : ∀ y, isLeap y = true ↔ NaiveDate.leapNat y = 1 := fun y => by unfold NaiveDate.leapNat; cases isLeap y <;> simp
  have s0 := NaiveDate.daysBeforeYear_succ d.year
  have s1 := NaiveDate.daysBeforeYear_succ (d.year - 1)
  rw [show d.year - 1 + 1 = d.year by omega] at s1
  have n0 := newYear_eq d.year
  have n1 := newYear_eq (d.year - 1)
  have l0 := hl1 d.year
  have l1 := hl1 (d.year - 1)
  unfold Format.weekday at hw
  have hy : t.year = d.year - 1 ∨ t.year = d.year ∨ t.year = d.year + 1 := by
    by_cases c1 : t.year + 1 ≤ d.year - 1
    · have := NaiveDate.daysBeforeYear_mono c1
      have s2 := NaiveDate.daysBeforeYear_succ t.year
      have := hl1 t.year
      omega
    · by_cases c2 : d.year + 1 ≤ t.year - 1
      · have := NaiveDate.daysBeforeYear_mono c2
        have s2 := NaiveDate.daysBeforeYear_succ (t.year - 1)
        rw [show t.year - 1 + 1 = t.year by omega] at s2
        omega
      · omega
  unfold Format.isoWeek Format.isoDelta Format.isoWeeks
  simp only [hlp]
  generalize Format.newYear d.year = w0 at *
  generalize Format.newYear (d.year - 1) = w1 at *
  clear hl1 hlp hkt
  rcases hy with hy | hy | hy
  all_goals
    rw [hy] at en hot hlt ⊢
    repeat' split
    all_goals
      simp only [Prod.mk.injEq, true_and]
      omega

theorem weeksFrom_lt {d : NaiveDate} (h : RealDate d) (k : Nat) : Format.weeksFrom d k < 100 := by
  have hl : Format.ordinal d ≤ 365 + NaiveDate.leapNat d.year := ((NaiveDate.ok_iff d).2 h).ordinal
  have : NaiveDate.leapNat d.year ≤ 1 := by unfold NaiveDate.leapNat; split <;> omega
  unfold Format.weeksFrom
  omega

theorem isoWeek_range (d : NaiveDate) : d.year - 1 ≤ (Format.isoWeek d).1 ∧ (Format.isoWeek d).1 ≤ d.year + 1 ∧ 1 ≤ (Format.isoWeek d).2 ∧
    (Format.isoWeek d).2 ≤ 53 := by
  have h1 : ∀ y, 52 ≤ Format.isoWeeks y ∧ Format.isoWeeks y ≤ 53 := fun y => by unfold Format.isoWeeks; split <;> omega
  have h2 := h1 d.year
  have h3 := h1 (d.year - 1)
  unfold Format.isoWeek
  dsimp only
  split
  · exact ⟨by dsimp; omega, by dsimp; omega, by dsimp; omega, by dsimp; omega⟩
  · split
    · exact ⟨by dsimp; omega, by dsimp; omega, by dsimp; omega, by dsimp; omega⟩
    · exact ⟨by dsimp; omega, by dsimp; omega, by dsimp; omega, by dsimp; omega⟩

theorem isoWeek_lt (d : NaiveDate) : (Format.isoWeek d).2 < 100 := by have := (isoWeek_range d).2.2.2; omega

section

variable [Platform]

theorem genuine_shown {x : Date} (h : Genuine x) : RealDate (shownDay x) := by
  cases x with
  | date d => exact h
  | dateTime t =>
    cases t with
    | naive t => exact h.1
    | loc u => exact (NaiveDate.ok_iff _).1 (NaiveDateTime.shift_ok u _).1

theorem genuine_time {x : Date} (h : Genuine x) {t : NaiveDateTime} (ht : shownTime x = some t) : t.secs < 86400 ∧ t.frac < 2000000000 := by
  cases x with
  | date d => cases ht
  | dateTime y =>
    cases y with
    | naive t => cases ht; exact h.2
    | loc u => cases ht; exact ⟨(NaiveDateTime.shift_ok u _).2, h.2.2⟩

theorem args_date (x : Date) : x.formatArgs.date = shownDay x := by
  cases x with
  | date d => rfl
  | dateTime t => cases t <;> rfl

theorem args_time (x : Date) : x.formatArgs.time = (shownTime x).map fun t => (t.secs, t.frac) := by
  cases x with
  | date d => rfl
  | dateTime t => cases t <;> rfl

end

section

/-- The item needs a time. -/
def needsTime : FormatItem → Bool
  | .num n _ => (n matches .hour | .hour12 | .minute | .second | .nanosecond | .timestamp)
  | .fixed f => (f matches .lowerAmPm | .upperAmPm | .fraction _ _)
  | _ => false

/-- The item needs an offset. -/
def needsZone : FormatItem → Bool
  | .fixed f => (f matches .zoneName | .offset | .offsetColon | .offsetDoubleColon | .offsetTripleColon)
  | _ => false

/-- The item is specified. -/
def closedItem : FormatItem → Bool
  | .error => false
  | _ => true

/-- The text of the item does not depend on the offset. -/
def itemZoneFree (i : FormatItem) : Bool := closedItem i && !needsZone i && !(i matches .num .timestamp _)

def zoneFree (is : List FormatItem) : Prop := ∀ i ∈ is, itemZoneFree i = true

variable [Centuries]

theorem write_some {a : FormatArgs} (h : RealDate a.date) (i : FormatItem) (hc : closedItem i = true) (ht : needsTime i = true → a.time.isSome)
    (hz : needsZone i = true → a.off.isSome) : ∃ s, writeItem a i = some s := by
  obtain ⟨d, t, o⟩ := a
  have hm : ∃ s, monthNames[d.month - 1]? = some s := ⟨_, List.getElem?_eq_getElem (show d.month - 1 < 12 by have := h.1; have := h.2.1; dsimp at *; omega)⟩
  have hw : ∃ s, weekdayNames[Format.weekday d]? = some s := ⟨_, List.getElem?_eq_getElem (show Format.weekday d < 7 by unfold Format.weekday; omega)⟩
  obtain ⟨m, hm⟩ := hm
  obtain ⟨w, hw⟩ := hw
  cases i with
  | char c => exact ⟨_, rfl⟩
  | num n p =>
    cases t with
    | none => cases n <;> first | exact ⟨_, rfl⟩ | (exact absurd (ht rfl) (by simp))
    | some t => cases n <;> exact ⟨_, rfl⟩
  | fixed f =>
    cases f with
    | shortMonth => exact ⟨m.take 3, by simp [writeItem, writeFixed, hm]⟩
    | longMonth => exact ⟨m, by simp [writeItem, writeFixed, hm]⟩
    | shortWeekday => exact ⟨w.take 3, by simp [writeItem, writeFixed, hw]⟩
    | longWeekday => exact ⟨w, by simp [writeItem, writeFixed, hw]⟩
    | lowerAmPm => cases t with
      | none => exact absurd (ht rfl) (by simp)
      | some t => exact ⟨_, rfl⟩
    | upperAmPm => cases t with
      | none => exact absurd (ht rfl) (by simp)
      | some t => exact ⟨_, rfl⟩
    | fraction n dot => cases t with
      | none => exact absurd (ht rfl) (by simp)
      | some t =>
        simp only [writeItem, writeFixed]
        repeat' split
        all_goals exact ⟨_, rfl⟩
    | zoneName => cases o with
      | none => exact absurd (hz rfl) (by simp)
      | some o => cases t <;> exact ⟨_, rfl⟩
    | offset => cases o with
      | none => exact absurd (hz rfl) (by simp)
      | some o => cases t <;> exact ⟨_, rfl⟩
    | offsetColon => cases o with
      | none => exact absurd (hz rfl) (by simp)
      | some o => cases t <;> exact ⟨_, rfl⟩
    | offsetDoubleColon => cases o with
      | none => exact absurd (hz rfl) (by simp)
      | some o => cases t <;> exact ⟨_, rfl⟩
    | offsetTripleColon => cases o with
      | none => exact absurd (hz rfl) (by simp)
      | some o => cases t <;> exact ⟨_, rfl⟩
  | error => cases hc

theorem writes_some {a : FormatArgs} (h : RealDate a.date) : ∀ (is : List FormatItem), (∀ i ∈ is, closedItem i = true ∧ (needsTime i = true → a.time.isSome) ∧
    (needsZone i = true → a.off.isSome)) → ∃ s, writeItems a is = some s
  | [], _ => ⟨[], rfl⟩
  | i :: is, hi => by
    obtain ⟨h1, h2, h3⟩ := hi i (List.mem_cons_self ..)
    obtain ⟨x, hx⟩ := write_some h i h1 h2 h3
    obtain ⟨y, hy⟩ := writes_some h is fun j hj => hi j (List.mem_cons_of_mem _ hj)
    exact ⟨x ++ y, by simp [writeItems, hx, hy]⟩

theorem writes_each {a : FormatArgs} : ∀ {is : List FormatItem} {s : Str}, writeItems a is = some s → ∀ i ∈ is, ∃ x, writeItem a i = some x
  | [], _, _, i, hi => by cases hi
  | j :: is, s, h, i, hi => by
    cases h1 : writeItem a j with
    | none => simp [writeItems, h1] at h
    | some x =>
      cases h2 : writeItems a is with
      | none => simp [writeItems, h1, h2] at h
      | some y =>
        rcases List.mem_cons.1 hi with rfl | hi
        · exact ⟨x, h1⟩
        · exact writes_each h2 i hi

theorem writes_time {a : FormatArgs} {is : List FormatItem} {s : Str} (h : writeItems a is = some s) {i : FormatItem} (hi : i ∈ is) (hn : needsTime i = true) :
    a.time.isSome := by
  obtain ⟨x, hx⟩ := writes_each h i hi
  obtain ⟨d, t, o⟩ := a
  cases t with
  | some t => rfl
  | none =>
    cases i with
    | num n p => cases n <;> first | contradiction | cases hx
    | fixed f => cases f <;> first | contradiction | cases hx
    | _ => cases hn

theorem writes_zone {a : FormatArgs} {is : List FormatItem} {s : Str} (h : writeItems a is = some s) {i : FormatItem} (hi : i ∈ is) (hn : needsZone i = true) :
    a.off.isSome := by
  obtain ⟨x, hx⟩ := writes_each h i hi
  obtain ⟨d, t, o⟩ := a
  cases o with
  | some t => rfl
  | none =>
    cases i with
    | fixed f => cases f <;> first | contradiction | (cases t <;> cases hx)
    | _ => cases hn

theorem writes_free (a b : FormatArgs) (hd : a.date = b.date) (ht : a.time = b.time) : ∀ (is : List FormatItem), zoneFree is → writeItems a is = writeItems b is
  | [], _ => rfl
  | i :: is, h => by
    have h1 : writeItem a i = writeItem b i := by
      have hi := h i (List.mem_cons_self ..)
      obtain ⟨d, t, o⟩ := a
      obtain ⟨d', t', o'⟩ := b
      cases hd; cases ht
      cases i with
      | char c => rfl
      | num n p => cases n <;> first | (cases t <;> rfl) | cases hi
      | fixed f => cases f <;> first | (cases t <;> rfl) | cases hi
      | _ => cases hi
    rw [writeItems, writeItems, h1, writes_free a b hd ht is fun j hj => h j (List.mem_cons_of_mem _ hj)]

omit [Centuries]

theorem date_needs : ∀ p ∈ dateDirectives, p ∉ timeDirectives ∧ p ∉ zoneDirectives ∧
    ∀ i ∈ items p, closedItem i = true ∧ needsTime i = false ∧ needsZone i = false := by decide +kernel

theorem time_needs : ∀ p ∈ timeDirectives, p ∉ zoneDirectives ∧ (∀ i ∈ items p, closedItem i = true ∧ needsZone i = false) ∧
    ∃ i ∈ items p, needsTime i = true := by decide +kernel

theorem zone_needs : ∀ p ∈ zoneDirectives, p ∉ timeDirectives ∧ (∀ i ∈ items p, closedItem i = true) ∧ ∃ i ∈ items p, needsZone i = true := by
  decide +kernel

theorem date_free : ∀ p ∈ dateDirectives, zoneFree (items p) := by unfold zoneFree; decide +kernel
theorem time_free : ∀ p ∈ timeDirectives, p ∉ zoneDependent → zoneFree (items p) := by unfold zoneFree; decide +kernel

end

end Ikal
