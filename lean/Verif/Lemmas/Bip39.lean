import Verif.Model.Mnemonic
import Verif.Lemmas.Bip39Check1
import Verif.Lemmas.Bip39Check2
import Verif.Lemmas.Bip39Check3

/-! The ten dictionaries: 2048 different, non-empty words without spaces. -/

namespace Cardano.Mnemonic

/-- Number of a word: the byte 1 followed by its bytes. -/
def wordNum (w : Bytes) : Nat := w.foldl (fun a b => a * 256 + b.toNat) 1

theorem filterBit_eq (p v l) : filterBit p v l = l.filter (fun n => n / p % 2 == v) := by
  induction l with
  | nil => rfl
  | cons n l ih =>
    rw [filterBit_cons, ih, List.filter_cons]
    have : Nat.beq (Nat.mod (Nat.div n p) 2) v = (n / p % 2 == v) := by
      rw [Bool.eq_iff_iff, beq_iff_eq, Nat.beq_eq]; rfl
    rw [this]
    cases (n / p % 2 == v) <;> rfl

theorem neAll_iff (n l) : neAll n l = true ↔ n ∉ l := by
  induction l with
  | nil => simp [neAll]
  | cons m l ih =>
    rw [neAll_cons]
    simp only [List.mem_cons, not_or]
    have : Nat.beq n m = decide (n = m) := by
      rw [Bool.eq_iff_iff, decide_eq_true_iff, Nat.beq_eq]
    rw [this]
    by_cases h : n = m <;> simp [h, ih]

theorem nodupN_sound : ∀ l, nodupN l = true → l.Nodup := by
  intro l
  induction l with
  | nil => intro _; exact List.nodup_nil
  | cons n l ih =>
    intro h
    rw [nodupN] at h
    cases hn : neAll n l with
    | false => simp [hn] at h
    | true => simp only [hn, cond_true] at h; exact List.nodup_cons.mpr ⟨(neAll_iff n l).mp hn, ih h⟩

theorem wordChk_zero : ∀ f, wordChk f 0 = false := by
  intro f
  induction f with
  | zero => rfl
  | succ f ih =>
    rw [wordChk, show Nat.beq 0 1 = false from rfl, show Nat.beq (Nat.mod 0 256) 32 = false from rfl]
    exact ih

theorem wordChk_sound : ∀ f n acc, wordChk f n = true →
    ∃ w, wordBytesAux f n acc = w ++ acc ∧ wordNum w = n ∧ (32 : UInt8) ∉ w := by
  intro f
  induction f with
  | zero => intro n acc h; simp [wordChk] at h
  | succ f ih =>
    intro n acc h
    rw [wordChk] at h
    by_cases h1 : n = 1
    · subst h1; exact ⟨[], rfl, rfl, by simp⟩
    · have hb : Nat.beq n 1 = false := by
        cases hh : Nat.beq n 1 with
        | false => rfl
        | true => exact absurd (Nat.beq_eq.mp hh) h1
      rw [hb] at h
      simp only [cond_false] at h
      cases h32 : Nat.beq (Nat.mod n 256) 32 with
      | true => simp [h32] at h
      | false =>
        rw [h32] at h
        simp only [cond_false] at h
        have hge : ¬ n < 256 := by
          intro hlt
          have : Nat.div n 256 = 0 := Nat.div_eq_of_lt hlt
          rw [this, wordChk_zero] at h
          simp at h
        obtain ⟨w, e1, e2, e3⟩ := ih (n / 256) (UInt8.ofNat (n % 256) :: acc) h
        refine ⟨w ++ [UInt8.ofNat (n % 256)], ?_, ?_, ?_⟩
        · rw [wordBytesAux, if_neg hge, e1]; simp
        · unfold wordNum at e2 ⊢
          rw [List.foldl_append, e2]
          simp only [List.foldl_cons, List.foldl_nil, UInt8.toNat_ofNat']
          omega
        · simp only [List.mem_append, List.mem_singleton, not_or]
          refine ⟨e3, ?_⟩
          intro hh
          have h2 := congrArg UInt8.toNat hh
          simp at h2
          have : Nat.beq (Nat.mod n 256) 32 = true := Nat.beq_eq.mpr h2.symm
          rw [this] at h32; exact absurd h32 (by simp)

theorem allChk_sound : ∀ l, allChk l = true → ∀ n ∈ l,
    wordNum (wordBytes n) = n ∧ (32 : UInt8) ∉ wordBytes n ∧ wordBytes n ≠ [] := by
  intro l
  induction l with
  | nil => intro _ n hn; simp at hn
  | cons m l ih =>
    intro h n hn
    rw [allChk] at h
    cases h255 : Nat.ble m 255 with
    | true => simp [h255] at h
    | false =>
      cases hw : wordChk 40 m with
      | false => simp [h255, hw] at h
      | true =>
        simp only [h255, hw, cond_false, cond_true] at h
        rcases List.mem_cons.mp hn with rfl | hn
        · obtain ⟨w, e1, e2, e3⟩ := wordChk_sound 40 n [] hw
          rw [List.append_nil] at e1
          unfold wordBytes
          rw [e1]
          refine ⟨e2, e3, ?_⟩
          rintro rfl
          have : n = 1 := e2.symm
          subst this
          exact absurd h255 (by decide)
        · exact ih h n hn

theorem nodup_split {α} (p : α → Bool) : ∀ {l : List α}, (l.filter p).Nodup → (l.filter fun x => !p x).Nodup → l.Nodup := by
  intro l
  induction l with
  | nil => intro _ _; exact List.nodup_nil
  | cons a l ih =>
    intro h1 h2
    cases hp : p a with
    | true =>
      rw [List.filter_cons_of_pos hp] at h1
      rw [List.filter_cons_of_neg (by simp [hp])] at h2
      rw [List.nodup_cons] at h1 ⊢
      exact ⟨fun hm => h1.1 (List.mem_filter.mpr ⟨hm, hp⟩), ih h1.2 h2⟩
    | false =>
      rw [List.filter_cons_of_neg (by simp [hp])] at h1
      rw [List.filter_cons_of_pos (by simp [hp])] at h2
      rw [List.nodup_cons] at h2 ⊢
      exact ⟨fun hm => h2.1 (List.mem_filter.mpr ⟨hm, by simp [hp]⟩), ih h1 h2.2⟩

theorem nodupR_sound : ∀ f p l, nodupR f p l = true → l.Nodup := by
  intro f
  induction f with
  | zero => intro p l h; exact nodupN_sound l h
  | succ f ih =>
    intro p l h
    rw [nodupR] at h
    cases h0 : nodupR f (Nat.mul p 2) (filterBit p 0 l) with
    | false => rw [h0] at h; exact absurd h (by simp)
    | true =>
      simp only [h0, cond_true] at h
      have h0 := ih _ _ h0
      have h1 := ih _ _ h
      rw [filterBit_eq] at h0 h1
      refine nodup_split _ h0 ?_
      have : (fun n : Nat => !(n / p % 2 == 0)) = (fun n => n / p % 2 == 1) := by
        funext n
        rw [Bool.eq_iff_iff]
        simp
      rw [this]; exact h1

theorem table_ok (l : Lang) : tableOk (table l) = true := by
  cases l
  · exact chineseSimplified_ok
  · exact chineseTraditional_ok
  · exact czech_ok
  · exact english_ok
  · exact french_ok
  · exact italian_ok
  · exact japanese_ok
  · exact korean_ok
  · exact portuguese_ok
  · exact spanish_ok

theorem table_facts (l : Lang) : (table l).length = 2048 ∧ (table l).Nodup ∧
    ∀ n ∈ table l, wordNum (wordBytes n) = n ∧ (32 : UInt8) ∉ wordBytes n ∧ wordBytes n ≠ [] := by
  have h := table_ok l
  unfold tableOk at h
  cases h1 : Nat.beq (table l).length 2048 with
  | false => rw [h1] at h; simp at h
  | true =>
    cases h2 : nodupR 10 1 (table l) with
    | false => rw [h1, h2] at h; simp at h
    | true =>
      rw [h1, h2] at h
      exact ⟨Nat.beq_eq.mp h1, nodupR_sound _ _ _ h2, allChk_sound _ h⟩

theorem dict_length (l : Lang) : (getDictionary l).length = 2048 := by
  simp [getDictionary, (table_facts l).1]

theorem dict_nodup (l : Lang) : (getDictionary l).Nodup := by
  obtain ⟨_, hn, h⟩ := table_facts l
  unfold getDictionary
  refine List.pairwise_map.mpr (List.Pairwise.imp_of_mem ?_ hn)
  intro a b ha hb hab hw
  exact hab (by rw [← (h a ha).1, ← (h b hb).1, hw])

theorem dict_noSpace (l : Lang) : ∀ w ∈ getDictionary l, (32 : UInt8) ∉ w ∧ w ≠ [] := by
  obtain ⟨_, _, h⟩ := table_facts l
  intro w hw
  obtain ⟨n, hn, rfl⟩ := List.mem_map.mp hw
  exact (h n hn).2

end Cardano.Mnemonic
