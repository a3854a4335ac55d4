import Verif.Model.Base58
import Mathlib.Data.Nat.Digits.Lemmas
import Mathlib.Tactic.Ring
import Mathlib.Tactic.Linarith

namespace Cardano.Base58

/-! ### numbers and canonical digit lists -/

/-- canonical little-endian digits, with `[0]` for zero -/
def can (b v : Nat) : List Nat := if v = 0 then [0] else Nat.digits b v

theorem can_ne_nil (b v) : can b v ≠ [] := by
  unfold can; split
  · simp
  · rename_i h; exact Nat.digits_ne_nil_iff_ne_zero.mpr h

theorem can_lt (b v : Nat) (hb : 1 < b) : ∀ d ∈ can b v, d < b := by
  unfold can; split
  · intro d hd; simp at hd; omega
  · intro d hd; exact Nat.digits_lt_base hb hd

/-- the inner loop followed by the extension loop, abstractly -/
def mulAdd (b m : Nat) : (c : Nat) → List Nat → List Nat
  | c, [] => Nat.digits b c
  | c, d :: ds => (c + d * m) % b :: mulAdd b m ((c + d * m) / b) ds

theorem mulAdd_digits (b m : Nat) (hb : 1 < b) (hm : 0 < m) : ∀ (v c : Nat),
    mulAdd b m c (Nat.digits b v) = Nat.digits b (m * v + c) := by
  intro v
  induction v using Nat.strongRecOn with
  | ind v ih =>
    intro c
    by_cases hv : v = 0
    · subst hv; simp [mulAdd]
    · have hvp : 0 < v := Nat.pos_of_ne_zero hv
      have hpos : 0 < m * v + c := by have := Nat.mul_pos hm hvp; omega
      rw [Nat.digits_def' hb hvp, Nat.digits_def' hb hpos]
      simp only [mulAdd]
      rw [ih (v / b) (Nat.div_lt_self hvp hb)]
      have key : m * v + c = (c + v % b * m) + b * (m * (v / b)) := by
        have := Nat.div_add_mod v b
        calc m * v + c = m * (b * (v / b) + v % b) + c := by rw [this]
          _ = _ := by ring
      have h1 : (m * v + c) % b = (c + v % b * m) % b := by
        rw [key, Nat.add_mul_mod_self_left]
      have h2 : (m * v + c) / b = m * (v / b) + (c + v % b * m) / b := by
        rw [key, Nat.add_mul_div_left _ _ (by omega)]; omega
      rw [h1, h2]

theorem mulAdd_can (b m : Nat) (hb : 1 < b) (hm : 0 < m) (v c : Nat) :
    mulAdd b m c (can b v) = can b (m * v + c) := by
  by_cases hv : v = 0
  · subst hv
    simp only [can, if_true, mulAdd, Nat.mul_zero, Nat.zero_mul, Nat.add_zero, Nat.zero_add]
    by_cases hc : c = 0
    · simp [hc]
    · rw [if_neg hc, Nat.digits_def' hb (Nat.pos_of_ne_zero hc)]
  · have hvp : 0 < v := Nat.pos_of_ne_zero hv
    have hpos : m * v + c ≠ 0 := by have := Nat.mul_pos hm hvp; omega
    rw [can, if_neg hv, can, if_neg hpos, mulAdd_digits b m hb hm]

theorem encInner_mulAdd (ds : List Nat) : ∀ c,
    mulAdd 58 256 c ds = (encInner c ds).1 ++ Nat.digits 58 (encInner c ds).2 := by
  induction ds with
  | nil => intro c; rfl
  | cons d ds ih =>
    intro c
    simp only [mulAdd, encInner, Nat.shiftLeft_eq, List.cons_append]
    rw [ih]

theorem encExt_ok (cap : Nat) : ∀ (fuel c : Nat) (ds : List Nat), c ≤ fuel →
    ds.length + (Nat.digits 58 c).length ≤ cap → encExt cap fuel c ds = .ok (ds ++ Nat.digits 58 c) := by
  intro fuel
  induction fuel with
  | zero => intro c ds h _; have : c = 0 := by omega
            subst this; simp [encExt]
  | succ fuel ih =>
    intro c ds h hcap
    by_cases hc : c = 0
    · subst hc; simp [encExt]
    · have hd := Nat.digits_def' (b := 58) (by omega) (Nat.pos_of_ne_zero hc)
      rw [hd] at hcap ⊢
      simp only [List.length_cons] at hcap
      rw [encExt, if_neg hc, if_neg (by omega), ih _ _ (by have := Nat.div_lt_self (Nat.pos_of_ne_zero hc) (show 1 < 58 by omega); omega)]
      · simp
      · simp; omega

/-- big-endian value of a byte string -/
def beVal (bs : Bytes) : Nat := bs.foldl (fun v b => v * 256 + b.toNat) 0

theorem beFold_lt (bs : Bytes) : ∀ v k, v < 256 ^ k →
    bs.foldl (fun v b => v * 256 + b.toNat) v < 256 ^ (k + bs.length) := by
  induction bs with
  | nil => intro v k h; simpa using h
  | cons b bs ih =>
    intro v k h
    simp only [List.foldl_cons, List.length_cons]
    have := ih (v * 256 + b.toNat) (k + 1) (by
      have := b.toNat_lt
      rw [Nat.pow_succ]; omega)
    rw [show k + (bs.length + 1) = k + 1 + bs.length by omega]
    exact this

/-- the buffer bound -/
theorem can58_length (v n : Nat) (h : v < 256 ^ n) : (can 58 v).length ≤ n * 138 / 100 + 1 := by
  by_cases hv : v = 0
  · subst hv; simp [can]
  · rw [can, if_neg hv]
    by_contra hlt
    have hle := Nat.base_pow_length_digits_le 58 v (by omega) hv
    have h1 : 58 ^ (n * 138 / 100 + 2) ≤ 58 * v :=
      Nat.le_trans (Nat.pow_le_pow_right (by omega) (by omega)) hle
    have h2 : 58 ^ (n * 138 / 100 + 1) ≤ v := by
      rw [show n * 138 / 100 + 2 = (n * 138 / 100 + 1) + 1 by omega, Nat.pow_succ] at h1
      omega
    have h3 : 58 ^ (n * 138 / 100 + 1) < 256 ^ n := by omega
    have h4 : (58 ^ (n * 138 / 100 + 1)) ^ 100 < (256 ^ n) ^ 100 := Nat.pow_lt_pow_left h3 (by omega)
    rw [← Nat.pow_mul, ← Nat.pow_mul] at h4
    have h5 : 58 ^ (138 * n) ≤ 58 ^ ((n * 138 / 100 + 1) * 100) :=
      Nat.pow_le_pow_right (by omega) (by omega)
    have h6 : 256 ^ (n * 100) ≤ 58 ^ (138 * n) := by
      rw [Nat.mul_comm n 100, Nat.pow_mul, Nat.pow_mul]
      exact Nat.pow_le_pow_left (by decide +kernel) n
    omega

theorem encLoop_ok (cap n : Nat) (hcap : n * 138 / 100 + 1 ≤ cap) : ∀ (bs : Bytes) (v k : Nat),
    v < 256 ^ k → k + bs.length ≤ n →
    encLoop cap (can 58 v) bs = .ok (can 58 (bs.foldl (fun v b => v * 256 + b.toNat) v)) := by
  intro bs
  induction bs with
  | nil => intros; rfl
  | cons b bs ih =>
    intro v k hv hk
    simp only [List.length_cons] at hk
    have hnext : v * 256 + b.toNat < 256 ^ (k + 1) := by
      have := b.toNat_lt
      rw [Nat.pow_succ]; omega
    have hm := mulAdd_can 58 256 (by omega) (by omega) v b.toNat
    rw [encInner_mulAdd, Nat.mul_comm] at hm
    have hlen : (can 58 (v * 256 + b.toNat)).length ≤ cap := by
      have h1 := can58_length _ (k + 1) hnext
      have : (k + 1) * 138 / 100 ≤ n * 138 / 100 := Nat.div_le_div_right (by omega)
      omega
    have := encExt_ok cap (encInner b.toNat (can 58 v)).2 _ (encInner b.toNat (can 58 v)).1 (Nat.le_refl _)
      (by rw [← List.length_append, hm]; exact hlen)
    simp only [encLoop, this, Out.bind, hm, List.foldl_cons]
    exact ih _ (k + 1) hnext (by omega)

theorem encode_digits (bs : Bytes) (hne : bs ≠ []) :
    encode bs = (chars (can 58 (beVal bs)).reverse).bind
      (fun cs => .ok (List.replicate (leadingZeros bs) 49 ++ cs)) := by
  have h := encLoop_ok (bs.length * 138 / 100 + 1) bs.length (Nat.le_refl _) bs 0 0 (by simp) (by omega)
  unfold encode
  have h0 : ([0] : List Nat) = can 58 0 := rfl
  simp only [h0, h, Out.ok_bind, hne, if_false]
  rfl

/-! ### characters -/

theorem charset_rev : ∀ d : Fin 58, ∃ c, charset[d.val]? = some c ∧ c.toNat < 128 ∧
    charsetRev[c.toNat]? = some (d.val : Int) ∧ (c = 49 ↔ d.val = 0) := by
  have : ∀ d : Fin 58, (charset[d.val]?).any (fun c => decide (c.toNat < 128) &&
      (charsetRev[c.toNat]? == some (d.val : Int)) && (decide (c = 49) == decide (d.val = 0))) = true := by
    decide +kernel
  intro d
  have h := this d
  cases hc : charset[d.val]? with
  | none => simp [hc] at h
  | some c =>
    simp [hc] at h
    refine ⟨c, rfl, h.1.1, h.1.2, ?_⟩
    have := h.2
    constructor <;> intro hh <;> simp_all

/-- value of a character of the alphabet -/
def charVal (c : UInt8) : Nat := ((charsetRev[c.toNat]?).getD (-1)).toNat

theorem rev_charset : ∀ c : UInt8, c ∈ charset → c.toNat < 128 ∧ charsetRev[c.toNat]? = some (charVal c : Int) ∧
    charVal c < 58 ∧ charset[charVal c]? = some c ∧ (c = 49 ↔ charVal c = 0) :=
  forall_byte (by decide +kernel)

theorem chars_ok (ds : List Nat) (h : ∀ d ∈ ds, d < 58) : ∃ cs, chars ds = .ok cs ∧
    (∀ c ∈ cs, c ∈ charset) ∧ cs.map charVal = ds ∧ cs.length = ds.length := by
  induction ds with
  | nil => exact ⟨[], rfl, by simp, rfl, rfl⟩
  | cons d ds ih =>
    obtain ⟨cs, h1, h2, h3, h4⟩ := ih (fun x hx => h x (by simp [hx]))
    obtain ⟨c, c1, c2, c3, c4⟩ := charset_rev ⟨d, h d (by simp)⟩
    simp only at c1 c3
    refine ⟨c :: cs, by simp [chars, charAt, c1, h1], ?_, ?_, by simp [h4]⟩
    · intro x hx
      rcases List.mem_cons.1 hx with rfl | hx
      · exact List.mem_of_getElem? c1
      · exact h2 x hx
    · simp [charVal, c3]; exact h3

theorem chars_val (cs : Bytes) (h : ∀ c ∈ cs, c ∈ charset) : chars (cs.map charVal) = .ok cs := by
  induction cs with
  | nil => rfl
  | cons c cs ih =>
    have := rev_charset c (h c (by simp))
    simp [chars, charAt, this.2.2.2.1, ih (fun x hx => h x (by simp [hx]))]

/-! ### decoding -/

theorem decInner_mulAdd (ds : List Nat) (hd : ∀ d ∈ ds, d < 256) : ∀ c, c ≤ 58 →
    mulAdd 256 58 c ds = (decInner c ds).1 ++ Nat.digits 256 (decInner c ds).2 := by
  induction ds with
  | nil => intro c _; rfl
  | cons d ds ih =>
    intro c hc
    have hdl := hd d (by simp)
    have hlt : c + d * 58 < 2 ^ 32 := by omega
    simp only [mulAdd, decInner, Nat.mod_eq_of_lt hlt, Nat.shiftRight_eq_div_pow, List.cons_append]
    rw [ih (fun x hx => hd x (by simp [hx])) _ (by omega)]
    rw [show (0xff : Nat) = 2 ^ 8 - 1 by decide, Nat.and_two_pow_sub_one_eq_mod]

theorem decExt_ok : ∀ (fuel c : Nat) (ds : List Nat), c ≤ fuel → decExt fuel c ds = ds ++ Nat.digits 256 c := by
  intro fuel
  induction fuel with
  | zero => intro c ds h; have : c = 0 := by omega
            subst this; simp [decExt]
  | succ fuel ih =>
    intro c ds h
    by_cases hc : c = 0
    · subst hc; simp [decExt]
    · rw [decExt, if_pos (by omega), Nat.digits_def' (by omega) (Nat.pos_of_ne_zero hc),
        Nat.shiftRight_eq_div_pow, ih _ _ (by omega), show (0xff : Nat) = 2 ^ 8 - 1 by decide,
        Nat.and_two_pow_sub_one_eq_mod]
      simp

/-- base-58 value of a text over the alphabet -/
def textVal (cs : Bytes) : Nat := cs.foldl (fun v c => v * 58 + charVal c) 0

theorem decLoop_ok (cs : Bytes) (h : ∀ c ∈ cs, c ∈ charset) : ∀ v,
    decLoop (can 256 v) cs = .ok (can 256 (cs.foldl (fun v c => v * 58 + charVal c) v)) := by
  induction cs with
  | nil => intro v; rfl
  | cons c cs ih =>
    intro v
    obtain ⟨h1, h2, h3, _, _⟩ := rev_charset c (h c (by simp))
    have hne : ¬ ((charVal c : Int) = -1) := by omega
    simp only [decLoop, h2, show ¬ c.toNat ≥ 128 by omega, if_false, hne, Int.toNat_natCast]
    rw [decExt_ok _ _ _ (Nat.le_refl _), ← decInner_mulAdd _ (can_lt 256 v (by omega)) _ (by omega),
      mulAdd_can 256 58 (by omega) (by omega), Nat.mul_comm, ih (fun x hx => h x (by simp [hx]))]
    rfl

theorem swap_length (l i) : (swap l i).length = l.length := by simp [swap]

theorem swap_get (l : List Nat) (i j : Nat) (hi : i < l.length) (hm : l.length ≤ 2 * i) :
    (swap l i)[j]? = if j = i ∨ j + i + 1 = l.length then l[l.length - 1 - j]? else l[j]? := by
  unfold swap
  simp only [List.getElem?_set, List.length_set]
  have hj2 : l.length - i - 1 < l.length := by omega
  by_cases h1 : l.length - i - 1 = j
  · subst h1
    rw [if_pos rfl, if_pos hj2, if_pos (by right; omega), show l.length - 1 - (l.length - i - 1) = i by omega,
      List.getElem?_eq_getElem hi, List.getD_eq_getElem?_getD, List.getElem?_eq_getElem hi]
    rfl
  · rw [if_neg h1]
    by_cases h2 : i = j
    · subst h2
      rw [if_pos rfl, if_pos hi, if_pos (by left; rfl), show l.length - 1 - i = l.length - i - 1 by omega,
        List.getElem?_eq_getElem hj2, List.getD_eq_getElem?_getD, List.getElem?_eq_getElem hj2]
      rfl
    · rw [if_neg h2, if_neg (by omega)]

theorem swapLoop_get (z : Nat) : ∀ (k : Nat) (l : List Nat) (j : Nat), z + k ≤ l.length → l.length ≤ 2 * z →
    j < l.length →
    (swapLoop z k l)[j]? = if (z ≤ j ∧ j < z + k) ∨ (z ≤ l.length - 1 - j ∧ l.length - 1 - j < z + k)
      then l[l.length - 1 - j]? else l[j]? := by
  intro k
  induction k with
  | zero => intro l j _ _ _; simp only [swapLoop]; rw [if_neg (by omega)]
  | succ k ih =>
    intro l j hk hz hj
    rw [swapLoop, ih (swap l (z + k)) j (by rw [swap_length]; omega) (by rw [swap_length]; omega)
      (by rw [swap_length]; omega)]
    rw [swap_length, swap_get l (z + k) j (by omega) (by omega), swap_get l (z + k) _ (by omega) (by omega)]
    have hjj : l.length - 1 - (l.length - 1 - j) = j := by omega
    rw [hjj]
    split <;> split <;> split <;> first | rfl | omega

theorem swapLoop_length (z k : Nat) (l : List Nat) : (swapLoop z k l).length = l.length := by
  induction k generalizing l with
  | zero => rfl
  | succ k ih => rw [swapLoop, ih, swap_length]

/-- the in-place loop reverses the vector -/
theorem swapLoop_reverse (l : List Nat) :
    swapLoop ((l.length >>> 1) + (l.length &&& 1)) (l.length - ((l.length >>> 1) + (l.length &&& 1))) l = l.reverse := by
  have hz : (l.length >>> 1) + (l.length &&& 1) = l.length / 2 + l.length % 2 := by
    rw [Nat.shiftRight_eq_div_pow, Nat.and_one_is_mod]
  rw [hz]
  apply List.ext_getElem?
  intro j
  by_cases hj : j < l.length
  · rw [swapLoop_get _ _ _ _ (by omega) (by omega) hj, List.getElem?_reverse hj]
    split
    · rfl
    · have : l.length - 1 - j = j := by omega
      rw [this]
  · rw [List.getElem?_eq_none, List.getElem?_eq_none]
    · simp; omega
    · rw [swapLoop_length]; omega

theorem decode_ok (cs : Bytes) (h : ∀ c ∈ cs, c ∈ charset) :
    decode cs = .ok ((List.replicate (leadingOnes cs) 0) ++ (can 256 (textVal cs)).reverse.map UInt8.ofNat) := by
  have h0 : ([0] : List Nat) = can 256 0 := rfl
  have hd := decLoop_ok cs h 0
  unfold decode
  simp only [h0, hd, Out.ok_bind, Out.pure_eq, swapLoop_reverse]
  simp [textVal]

/-! ### putting it together -/

theorem foldl_ofDigits (l : List Nat) (b : Nat) : ∀ v,
    l.foldl (fun v d => v * b + d) v = v * b ^ l.length + Nat.ofDigits b l.reverse := by
  induction l with
  | nil => intro v; simp
  | cons d l ih =>
    intro v
    simp only [List.foldl_cons, ih, List.reverse_cons, Nat.ofDigits_append, List.length_reverse,
      Nat.ofDigits_singleton, List.length_cons, Nat.pow_succ]
    ring

theorem textVal_eq (cs : Bytes) : textVal cs = Nat.ofDigits 58 (cs.map charVal).reverse := by
  have := foldl_ofDigits (cs.map charVal) 58 0
  rw [List.foldl_map] at this
  simpa [textVal] using this

theorem beVal_eq (bs : Bytes) : beVal bs = Nat.ofDigits 256 (bs.map UInt8.toNat).reverse := by
  have := foldl_ofDigits (bs.map UInt8.toNat) 256 0
  rw [List.foldl_map] at this
  simpa [beVal] using this

theorem ofDigits_can (b v : Nat) : Nat.ofDigits b (can b v) = v := by
  unfold can; split
  · rename_i h; simp [h]
  · exact Nat.ofDigits_digits b v

/-- A list split into leading zeros and a part with a non-zero head is determined
by its value: the part is the reversed canonical digits. -/
theorem strip_zeros {b : Nat} (hb : 1 < b) (z : Nat) (l : List Nat) (hl : ∀ d ∈ l, d < b) (hne : l ≠ [])
    (hh : l.head hne ≠ 0) :
    (can b (Nat.ofDigits b (List.replicate z 0 ++ l).reverse)).reverse = l ∧
      Nat.ofDigits b (List.replicate z 0 ++ l).reverse ≠ 0 := by
  have h1 : Nat.ofDigits b (List.replicate z 0 ++ l).reverse = Nat.ofDigits b l.reverse := by
    rw [List.reverse_append, List.reverse_replicate, Nat.ofDigits_append_replicate_zero]
  have h2 : Nat.digits b (Nat.ofDigits b l.reverse) = l.reverse := by
    apply Nat.digits_ofDigits b hb
    · intro x hx; exact hl x (by simpa using hx)
    · intro h; rw [List.getLast_reverse]; exact hh
  have h3 : Nat.ofDigits b l.reverse ≠ 0 := by
    intro h0
    rw [h0, Nat.digits_zero] at h2
    exact hne (by simpa using h2.symm)
  rw [h1]
  refine ⟨?_, h3⟩
  rw [can, if_neg h3, h2, List.reverse_reverse]

theorem split_bytes (bs : Bytes) (h : ∃ b ∈ bs, b ≠ 0) :
    ∃ l hne, bs = List.replicate (leadingZeros bs) 0 ++ l ∧ l.head hne ≠ 0 := by
  induction bs with
  | nil => simp at h
  | cons b bs ih =>
    by_cases hb : b = 0
    · subst hb
      have h' : ∃ b ∈ bs, b ≠ 0 := by
        obtain ⟨x, hx, hx0⟩ := h
        rcases List.mem_cons.1 hx with rfl | hx
        · exact absurd rfl hx0
        · exact ⟨x, hx, hx0⟩
      obtain ⟨l, hne, e1, e2⟩ := ih h'
      refine ⟨l, hne, ?_, e2⟩
      cases bs with
      | nil => simp at h'
      | cons y ys =>
        rw [leadingZeros]
        · simp only [if_true]
          rw [List.replicate_succ, List.cons_append, ← e1]
        · simp
    · refine ⟨b :: bs, by simp, ?_, by simpa using hb⟩
      cases bs with
      | nil => simp [leadingZeros]
      | cons y ys => simp [leadingZeros, hb]

theorem leadingZeros_replicate (z : Nat) (l : Bytes) (hne : l ≠ []) (hh : l.head hne ≠ 0) :
    leadingZeros (List.replicate z 0 ++ l) = z := by
  induction z with
  | zero =>
    cases l with
    | nil => exact absurd rfl hne
    | cons y ys => cases ys <;> simp_all [leadingZeros]
  | succ z ih =>
    rw [List.replicate_succ, List.cons_append]
    cases hx : List.replicate z (0 : UInt8) ++ l with
    | nil => simp at hx; exact absurd hx.2 hne
    | cons y ys =>
      rw [leadingZeros, ← hx, ih]
      · simp
      · simp

theorem leadingOnes_replicate (z : Nat) (l : Bytes) (hne : l ≠ []) (hh : l.head hne ≠ 49) :
    leadingOnes (List.replicate z 49 ++ l) = z := by
  induction z with
  | zero =>
    cases l with
    | nil => exact absurd rfl hne
    | cons y ys => simp_all [leadingOnes]
  | succ z ih => rw [List.replicate_succ, List.cons_append, leadingOnes, if_pos rfl, ih]

theorem split_text (cs : Bytes) (h : ∃ c ∈ cs, c ≠ 49) :
    ∃ l hne, cs = List.replicate (leadingOnes cs) 49 ++ l ∧ l.head hne ≠ 49 := by
  induction cs with
  | nil => simp at h
  | cons b bs ih =>
    by_cases hb : b = 49
    · subst hb
      have h' : ∃ b ∈ bs, b ≠ 49 := by
        obtain ⟨x, hx, hx0⟩ := h
        rcases List.mem_cons.1 hx with rfl | hx
        · exact absurd rfl hx0
        · exact ⟨x, hx, hx0⟩
      obtain ⟨l, hne, e1, e2⟩ := ih h'
      refine ⟨l, hne, ?_, e2⟩
      rw [leadingOnes, if_pos rfl, List.replicate_succ, List.cons_append, ← e1]
    · exact ⟨b :: bs, by simp, by simp [leadingOnes, hb], by simpa using hb⟩

end Cardano.Base58
