import Verif.Ser

/-! # Lemmas on ordered maps -/

namespace Ikal

theorem strLt_irrefl (a : Str) : strLt a a = false := by
  induction a with
  | nil => rfl
  | cons x a ih => simp [strLt, ih]

theorem char_toNat_inj {a b : Char} (h : a.toNat = b.toNat) : a = b := by
  have : a.val = b.val := UInt32.toNat.inj h
  exact Char.ext this

theorem strLt_trans {a b c : Str} (h1 : strLt a b = true) (h2 : strLt b c = true) : strLt a c = true := by
  induction a generalizing b c with
  | nil =>
    cases c with
    | nil => cases b <;> simp [strLt] at h1 h2
    | cons z c => rfl
  | cons x a ih =>
    cases b with
    | nil => simp [strLt] at h1
    | cons y b =>
      cases c with
      | nil => simp [strLt] at h2
      | cons z c =>
        simp only [strLt] at h1 h2 ⊢
        split at h1
        · split at h2
          · rw [if_pos (by omega)]
          · split at h2
            · subst_vars; rw [if_pos (by omega)]
            · simp at h2
        · split at h1
          · subst_vars
            split at h2
            · rw [if_pos (by omega)]
            · split at h2
              · subst_vars; rw [if_neg (by omega), if_pos rfl]; exact ih h1 h2
              · simp at h2
          · simp at h1

theorem strLt_tri (a b : Str) : strLt a b = true ∨ a = b ∨ strLt b a = true := by
  induction a generalizing b with
  | nil => cases b <;> simp [strLt]
  | cons x a ih =>
    cases b with
    | nil => simp [strLt]
    | cons y b =>
      simp only [strLt]
      rcases Nat.lt_trichotomy x.toNat y.toNat with h | h | h
      · simp [h]
      · have := char_toNat_inj h; subst this
        rcases ih b with h | h | h
        · simp [h]
        · simp [h]
        · simp [h]
      · simp [h]

theorem strLt_asymm {a b : Str} (h : strLt a b = true) : strLt b a = false := by
  cases h' : strLt b a with
  | false => rfl
  | true => have := strLt_trans h h'; rw [strLt_irrefl] at this; exact this.symm

theorem strLt_ne {a b : Str} (h : strLt a b = true) : a ≠ b := by
  rintro rfl; rw [strLt_irrefl] at h; simp at h

namespace SMap

variable {V : Type}

@[simp] theorem get?_nil (k : Str) : get? ([] : SMap V) k = none := rfl

theorem get?_insert (m : SMap V) (k : Str) (v : V) (k' : Str) :
    get? (insert m k v) k' = if k' = k then some v else get? m k' := by
  induction m with
  | nil => simp [insert, get?]
  | cons p m ih =>
    obtain ⟨a, b⟩ := p
    simp only [insert]
    split
    · subst_vars; simp only [get?]; split <;> rfl
    · split
      · rename_i h1 h2; simp only [get?]
      · rename_i h1 h2
        simp only [get?, ih]
        by_cases e : k' = a
        · subst e; simp [Ne.symm h1]
        · simp [e]

theorem mem_insert {m : SMap V} {k : Str} {v : V} {p : Str × V} (h : p ∈ insert m k v) :
    p = (k, v) ∨ p ∈ m := by
  induction m with
  | nil => simpa [insert] using h
  | cons q m ih =>
    obtain ⟨a, b⟩ := q
    simp only [insert] at h
    split at h
    · simp at h ⊢; grind
    · split at h
      · simpa using h
      · simp only [List.mem_cons] at h ⊢
        rcases h with h | h
        · exact .inr (.inl h)
        · rcases ih h with h | h
          · exact .inl h
          · exact .inr (.inr h)

theorem wf_nil : Wf ([] : SMap V) := List.Pairwise.nil

theorem Wf.insert {m : SMap V} (h : m.Wf) (k : Str) (v : V) : (SMap.insert m k v).Wf := by
  induction m with
  | nil => simp [SMap.insert, Wf]
  | cons p m ih =>
    obtain ⟨a, b⟩ := p
    have h' := List.pairwise_cons.1 h
    simp only [SMap.insert]
    split
    · subst_vars; exact List.pairwise_cons.2 ⟨fun q hq => h'.1 q hq, h'.2⟩
    · split
      · rename_i h1 h2
        refine List.pairwise_cons.2 ⟨fun q hq => ?_, h⟩
        rcases List.mem_cons.1 hq with rfl | hq
        · exact h2
        · exact strLt_trans h2 (h'.1 q hq)
      · rename_i h1 h2
        refine List.pairwise_cons.2 ⟨fun q hq => ?_, ih h'.2⟩
        rcases mem_insert hq with rfl | hq
        · rcases strLt_tri k a with h | h | h
          · exact absurd h h2
          · exact absurd h h1
          · exact h
        · exact h'.1 q hq

theorem get?_eq_none_of_lt {m : SMap V} {k : Str} (h : ∀ q ∈ m, strLt k q.1 = true) : get? m k = none := by
  induction m with
  | nil => rfl
  | cons p m ih =>
    obtain ⟨a, b⟩ := p
    have := strLt_ne (h (a, b) (by simp))
    simp only [get?]
    rw [if_neg this]
    exact ih fun q hq => h q (by simp [hq])

theorem Wf.tail {p : Str × V} {m : SMap V} (h : Wf (p :: m)) : Wf m := (List.pairwise_cons.1 h).2

theorem ext {m m' : SMap V} (h : m.Wf) (h' : m'.Wf) (e : ∀ k, get? m k = get? m' k) : m = m' := by
  induction m generalizing m' with
  | nil =>
    cases m' with
    | nil => rfl
    | cons p m' => have := e p.1; simp [get?] at this
  | cons p m ih =>
    cases m' with
    | nil => have := e p.1; simp [get?] at this
    | cons p' m' =>
      obtain ⟨a, b⟩ := p
      obtain ⟨a', b'⟩ := p'
      have h1 := List.pairwise_cons.1 h
      have h1' := List.pairwise_cons.1 h'
      have hk : a = a' := by
        rcases strLt_tri a a' with hl | hl | hl
        · have := e a
          rw [show get? ((a', b') :: m') a = none from get?_eq_none_of_lt fun q hq => by
            rcases List.mem_cons.1 hq with rfl | hq
            · exact hl
            · exact strLt_trans hl (h1'.1 q hq)] at this
          simp [get?] at this
        · exact hl
        · have := e a'
          rw [show get? ((a, b) :: m) a' = none from get?_eq_none_of_lt fun q hq => by
            rcases List.mem_cons.1 hq with rfl | hq
            · exact hl
            · exact strLt_trans hl (h1.1 q hq)] at this
          simp [get?] at this
      subst hk
      have hb : b = b' := by simpa [get?] using e a
      subst hb
      congr 1
      refine ih h.tail h'.tail fun k => ?_
      by_cases hka : k = a
      · subst hka
        rw [get?_eq_none_of_lt fun q hq => h1.1 q hq, get?_eq_none_of_lt fun q hq => h1'.1 q hq]
      · simpa [get?, hka] using e k

/-- Inserting a key larger than all others appends. -/
theorem insert_append {m : SMap V} {k : Str} {v : V} (h : ∀ q ∈ m, strLt q.1 k = true) :
    insert m k v = m ++ [(k, v)] := by
  induction m with
  | nil => rfl
  | cons p m ih =>
    obtain ⟨a, b⟩ := p
    have h1 := h (a, b) (by simp)
    simp only [insert]
    rw [if_neg (Ne.symm (strLt_ne h1)), if_neg (by rw [strLt_asymm h1]; simp), ih fun q hq => h q (by simp [hq])]
    rfl

theorem foldl_wf (l : List (Str × V)) (m : SMap V) (h : m.Wf) :
    (l.foldl (fun m p => SMap.insert m p.1 p.2) m).Wf := by
  induction l generalizing m with
  | nil => exact h
  | cons p l ih => exact ih _ (h.insert _ _)

theorem ofPairs_wf (l : List (Str × V)) : (ofPairs l).Wf := foldl_wf l _ wf_nil

/-- Collecting the entries of a map gives the map. -/
theorem ofPairs_self {m : SMap V} (h : m.Wf) : ofPairs m = m := by
  suffices H : ∀ (l p : SMap V), Wf (p ++ l) → l.foldl (fun m p => SMap.insert m p.1 p.2) p = p ++ l by
    exact (H m [] (by simpa using h)).trans (List.nil_append m)
  intro l
  induction l with
  | nil => intro p _; simp
  | cons q l ih =>
    intro p hp
    simp only [List.foldl_cons]
    have h1 := List.pairwise_append.1 hp
    rw [insert_append fun x hx => h1.2.2 x hx q (by simp)]
    have := ih (p ++ [q]) (by simpa using hp)
    simpa using this

theorem get?_foldl (l : List (Str × V)) (m : SMap V) (k : Str) :
    get? (l.foldl (fun m p => SMap.insert m p.1 p.2) m) k =
      (((l.filter (fun p => p.1 = k)).getLast?).map Prod.snd).or (get? m k) := by
  induction l generalizing m with
  | nil => simp
  | cons p l ih =>
    simp only [List.foldl_cons, ih, get?_insert]
    by_cases h : p.1 = k
    · subst h
      rw [List.filter_cons_of_pos (by simp), if_pos rfl]
      cases hl : (l.filter (fun q => q.1 = p.1)) with
      | nil => rfl
      | cons a b => rw [List.getLast?_cons_cons]; cases hx : (a :: b).getLast? <;> simp at hx ⊢
    · simp [h, Ne.symm h]

theorem get?_ofPairs (l : List (Str × V)) (k : Str) :
    get? (ofPairs l) k = ((l.filter (fun p => p.1 = k)).getLast?).map Prod.snd := by
  rw [ofPairs, get?_foldl]; simp

theorem get?_eq_some_mem {m : SMap V} {k : Str} {v : V} (h : get? m k = some v) : (k, v) ∈ m := by
  induction m with
  | nil => simp at h
  | cons p m ih =>
    obtain ⟨a, b⟩ := p
    simp only [get?] at h
    split at h
    · subst_vars; simp at h; simp [h]
    · simp [ih h]

end SMap
end Ikal
