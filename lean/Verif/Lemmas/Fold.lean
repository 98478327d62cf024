import Verif.Lemmas.Str
import Verif.Spec.Fold

/-! # Lemmas on folding -/

namespace Ikal

/-- Cutting into pieces of `n` octets. -/
inductive Chunks (n : Nat) : Str → List Str → Prop
  | nil : Chunks n [] []
  | last {s} : s ≠ [] → byteLen s ≤ n → Chunks n s [s]
  | cons {a b cs} : byteLen a = n → b ≠ [] → Chunks n b cs → Chunks n (a ++ b) (a :: cs)

theorem Chunks.nil_inv {n : Nat} {s : Str} {cs : List Str} (h : Chunks n s cs) (hs : s = []) :
    cs = [] := by
  induction h with
  | nil => rfl
  | last h => exact absurd hs h
  | cons _ hb => simp at hs; exact absurd hs.2 hb

theorem length_le_byteLen (s : Str) : s.length ≤ byteLen s := by
  induction s with
  | nil => simp
  | cons c s ih => simp; have := c.utf8Size_pos; omega

theorem splitGo_ok {n : Nat} (hn : 0 < n) {f : Nat} {s : Str} {cs : List Str} (hf : s.length ≤ f)
    (h : splitGo n f s = .ok cs) : Chunks n s cs := by
  induction f generalizing s cs with
  | zero =>
    have : s = [] := by simpa using hf
    subst this
    simp [splitGo] at h; subst h; exact .nil
  | succ f ih =>
    cases s with
    | nil => simp [splitGo] at h; subst h; exact .nil
    | cons c s =>
      simp only [splitGo] at h
      split at h
      · simp at h
      · rename_i chunk rest hsp
        obtain ⟨he, hl⟩ := splitAtBytes_some.1 hsp
        match hr : splitGo n f rest with
        | .err e => simp [hr] at h
        | .panic => simp [hr] at h
        | .ok cs' =>
          simp [hr] at h
          subst h
          have hlen : rest.length < (c :: s).length := by
            have : chunk ≠ [] := by
              rintro rfl
              have := byteLen_pos (s := c :: s) (by simp)
              simp at hl; simp at this; omega
            rw [he]; simp
            exact List.length_pos_iff.2 this
          have hc := ih (by simp at hf hlen; omega) hr
          by_cases hrest : rest = []
          · subst hrest
            have := hc.nil_inv rfl
            subst this
            simp at he
            have := Chunks.last (n := n) (s := chunk) (by rw [← he]; simp) (by omega)
            simpa [he] using this
          · have hb : 0 < byteLen rest := byteLen_pos hrest
            have h2 : byteLen (c :: s) = byteLen chunk + byteLen rest := by rw [he]; simp
            rw [he]
            exact .cons (by omega) hrest hc

theorem splitGo_not_err {n f : Nat} {s : Str} {e : Error} : splitGo n f s ≠ .err e := by
  induction f generalizing s with
  | zero => cases s <;> simp [splitGo]
  | succ f ih =>
    cases s with
    | nil => simp [splitGo]
    | cons c s =>
      simp only [splitGo]
      split
      · simp
      · rename_i chunk rest _
        have := ih (s := rest)
        match hr : splitGo n f rest with
        | .err e' =>
          intro h; simp at h; subst h; exact this hr
        | .panic => simp
        | .ok _ => simp

theorem splitGo_panic {n : Nat} (hn : 0 < n) {f : Nat} {s : Str} (hf : s.length ≤ f) :
    splitGo n f s = .panic ↔ ∃ k, n * k < byteLen s ∧ ¬ Spec.CharBoundary s (n * k) := by
  induction f generalizing s with
  | zero =>
    have : s = [] := by simpa using hf
    subst this
    simp [splitGo]
  | succ f ih =>
    cases s with
    | nil => simp [splitGo]
    | cons c s =>
      simp only [splitGo]
      split
      · rename_i hsp
        simp only [true_iff]
        have hb := splitAtBytes_none.1 hsp
        refine ⟨1, ?_, ?_⟩
        · by_cases hle : n < byteLen (c :: s)
          · omega
          · exfalso; apply hb
            exact ⟨c :: s, List.prefix_rfl, by omega⟩
        · rintro ⟨p, hp, hpl⟩
          apply hb
          have : byteLen p ≤ byteLen (c :: s) := by
            obtain ⟨q, hq⟩ := hp; rw [← hq]; simp
          exact ⟨p, hp, by omega⟩
      · rename_i chunk rest hsp
        obtain ⟨he, hl⟩ := splitAtBytes_some.1 hsp
        have hlen : rest.length < (c :: s).length := by
          have : chunk ≠ [] := by
            rintro rfl
            have := byteLen_pos (s := c :: s) (by simp)
            simp at hl; simp at this; omega
          rw [he]; simp
          exact List.length_pos_iff.2 this
        have hm : (splitGo n f rest).map (chunk :: ·) = .panic ↔ splitGo n f rest = .panic := by
          cases splitGo n f rest <;> simp
        rw [hm, ih (by simp at hf hlen; omega)]
        have h2 : byteLen (c :: s) = byteLen chunk + byteLen rest := by rw [he]; simp
        constructor
        · rintro ⟨k, hk, hnb⟩
          have hbr : 0 < byteLen rest := by omega
          have hcn : byteLen chunk = n := by omega
          refine ⟨k + 1, by rw [Nat.mul_add]; omega, ?_⟩
          rintro ⟨p, hp, hpl⟩
          apply hnb
          rw [he] at hp
          have hcp : chunk <+: p := by
            apply List.prefix_of_prefix_length_le (List.prefix_append _ _) hp
            -- otherwise p would be shorter in octets
            apply Nat.le_of_not_lt
            intro hlt
            have : p <+: chunk := List.prefix_of_prefix_length_le hp (List.prefix_append _ _) (by omega)
            obtain ⟨q, hq⟩ := this
            have hqne : q ≠ [] := by rintro rfl; simp at hq; simp [hq] at hlt
            have := byteLen_pos hqne
            have : byteLen chunk = byteLen p + byteLen q := by rw [← hq]; simp
            rw [Nat.mul_add] at hpl; omega
          obtain ⟨q, rfl⟩ := hcp
          refine ⟨q, ?_, ?_⟩
          · simpa [List.prefix_append_right_inj] using hp
          · simp [Nat.mul_add] at hpl; omega
        · rintro ⟨k, hk, hnb⟩
          cases k with
          | zero => exact absurd ⟨[], by simp, by simp⟩ hnb
          | succ k =>
            rw [Nat.mul_add] at hk hnb
            have hcn : byteLen chunk = n := by
              rw [hl]; have := Nat.zero_le (n * k); omega
            refine ⟨k, by omega, ?_⟩
            rintro ⟨p, hp, hpl⟩
            apply hnb
            refine ⟨chunk ++ p, ?_, by simp; omega⟩
            rw [he]
            exact (List.prefix_append_right_inj _).2 hp

theorem Chunks.flatten {n : Nat} {s : Str} {cs : List Str} (h : Chunks n s cs) : cs.flatten = s := by
  induction h with
  | nil => rfl
  | last _ _ => simp
  | cons _ _ _ ih => simp [ih]

theorem Chunks.ne_nil {n : Nat} {s : Str} {cs : List Str} (h : Chunks n s cs) (hs : s ≠ []) : cs ≠ [] := by
  cases h <;> simp_all

theorem Chunks.unfold_join {n : Nat} {s : Str} {cs : List Str} (h : Chunks n s cs)
    (hs : ¬ crlfsp <:+: s) : unfold (join crlfsp cs) = s := by
  induction h with
  | nil => simp
  | last _ _ => simpa using unfold_eq_self hs
  | @cons a b cs ha hb hc ih =>
    rw [join_cons _ _ _ (hc.ne_nil hb), List.append_assoc, unfold_fold, ih]
    · rintro ⟨x, y, rfl⟩; exact hs ⟨a ++ x, y, by simp⟩
    · rintro ⟨x, y, rfl⟩; exact hs ⟨x, y ++ b, by simp⟩

/-! ## Physical lines -/

open Spec

theorem physicalLines_ne_nil (s : Str) : physicalLines s ≠ [] := by
  fun_induction physicalLines s <;> simp_all

theorem physicalLines_crlf_append (a b : Str) :
    physicalLines (a ++ '\r' :: '\n' :: b) = physicalLines a ++ physicalLines b := by
  fun_induction physicalLines a with
  | case1 => simp [physicalLines]
  | case2 r ih => simp [physicalLines, ih]
  | case3 c r hr hn ih => exact absurd hn (physicalLines_ne_nil _)
  | case4 c r hr l ls hl ih =>
    rw [List.cons_append, physicalLines]
    · rw [ih, hl]; simp
    · intro r' hc hr'
      match r, hr' with
      | [], hr' => simp at hr'
      | x :: r, hr' => simp at hr'; exact hr r hc (by simp [hr'.1])

theorem physicalLines_mem_le {s l : Str} (h : l ∈ physicalLines s) : byteLen l ≤ byteLen s := by
  fun_induction physicalLines s generalizing l with
  | case1 => simp at h; subst h; simp
  | case2 r ih =>
    simp at h
    rcases h with rfl | h
    · simp
    · have := ih h; simp; omega
  | case3 c r hr hn ih => exact absurd hn (physicalLines_ne_nil _)
  | case4 c r hr l' ls hl ih =>
    simp at h
    rcases h with rfl | h
    · have := ih (l := l') (by simp [hl]); simp; omega
    · have := ih (l := l) (by simp [hl, h]); simp; omega

theorem Chunks.physical_le {n : Nat} {s : Str} {cs : List Str} (h : Chunks n s cs) (pre : Str) :
    ∀ l ∈ physicalLines (pre ++ join crlfsp cs), byteLen l ≤ max (byteLen pre) 1 + n := by
  induction h generalizing pre with
  | nil => intro l hl; have := physicalLines_mem_le hl; simp at this; omega
  | last _ h => intro l hl; have := physicalLines_mem_le hl; simp at this; omega
  | @cons a b cs ha hb hc ih =>
    intro l hl
    rw [join_cons _ _ _ (hc.ne_nil hb)] at hl
    have : pre ++ (a ++ crlfsp ++ join crlfsp cs)
        = (pre ++ a) ++ '\r' :: '\n' :: ([' '] ++ join crlfsp cs) := by simp
    rw [this, physicalLines_crlf_append, List.mem_append] at hl
    rcases hl with hl | hl
    · have := physicalLines_mem_le hl; simp at this; omega
    · have := ih [' '] l hl
      have h1 : byteLen [' '] = 1 := by decide
      omega

end Ikal
