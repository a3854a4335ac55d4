import Verif.Lemmas.Util
import Verif.Lemmas.Rational
import Mathlib.Data.Nat.Prime.Basic

/-! # C16–C18: integer packing, rational approximation, key files -/

namespace Cardano.Util

/-- **C16.** For every width `n` (4 and 8 in the library) and every value of that width,
`pack` gives the `n` bytes that denote the value in the stated byte order, and `unpack`
returns the number denoted by any `n` bytes; both are therefore exact inverses. -/
theorem C16_pack_unpack (n : Nat) :
    (∀ v < 2 ^ (8 * n), (packBE n v).length = n ∧ beNat (packBE n v) = v ∧ unpackBE n (packBE n v) = v ∧
      (packLE n v).length = n ∧ leNat (packLE n v) = v ∧ unpackLE n (packLE n v) = v) ∧
    (∀ bs : Bytes, bs.length = n → unpackBE n bs = beNat bs ∧ packBE n (unpackBE n bs) = bs ∧
      unpackLE n bs = leNat bs ∧ packLE n (unpackLE n bs) = bs) := by
  have h256 : (256 : Nat) ^ n = 2 ^ (8 * n) := by
    rw [Nat.pow_mul]
  constructor
  · intro v hv
    have hv' : v < 256 ^ n := by rw [h256]; exact hv
    refine ⟨packBE_length n v, ?_, unpackBE_packBE n v hv', packLE_length n v, ?_, ?_⟩
    · rw [beNat_packBE, Nat.mod_eq_of_lt hv']
    · rw [leNat_packLE, Nat.mod_eq_of_lt hv']
    · have := unpackLE_eq (packLE n v)
      rw [packLE_length] at this
      rw [this, leNat_packLE, Nat.mod_eq_of_lt hv']
  · intro bs hbs
    subst hbs
    refine ⟨unpackBE_eq bs, ?_, unpackLE_eq bs, ?_⟩
    · apply beNat_inj (packBE_length _ _)
      rw [beNat_packBE, unpackBE_eq, Nat.mod_eq_of_lt (beNat_lt bs)]
    · apply leNat_inj (packLE_length _ _)
      rw [leNat_packLE, unpackLE_eq, Nat.mod_eq_of_lt (leNat_lt bs)]

example : packBE 4 0x01020304 = [1, 2, 3, 4] := by decide +kernel
example : unpackLE 4 [1, 2, 3, 4] = 0x04030201 := by decide +kernel

theorem shl64_pos {e : Nat} (h : e ≤ 61) : shl64 e = ((2 ^ e : Nat) : Int) ∧ (shl64 e) ≤ 2 ^ 61 := by
  unfold shl64
  rw [if_pos (by omega)]
  refine ⟨by push_cast; rfl, ?_⟩
  have : (2 : Nat) ^ e ≤ 2 ^ 61 := Nat.pow_le_pow_right (by omega) h
  exact_mod_cast this

/-- **C17 (bounds).** For every finite double `±m/2^e` whose numerator fits in 63 bits
and with `e ≤ 61`, and every bound `md ≥ 1`, `rationalApprox` returns (no undefined
behaviour) a fraction whose denominator is between 1 and `md`. -/
theorem C17_denominator_bound_partial (neg : Bool) (m e : Nat) (md : Int) (hm : m < 2 ^ 63) (he : e ≤ 61) (hmd : 1 ≤ md) :
    ∃ p q, rationalApprox neg m e md = .ok (p, q) ∧ 1 ≤ q ∧ q ≤ md := by
  have hmI : (m : Int) < 2 ^ 63 := by exact_mod_cast hm
  unfold rationalApprox
  by_cases h1 : md ≤ 1
  · rw [if_pos h1]
    have hle : m / 2 ^ e ≤ m := Nat.div_le_self _ _
    have hb : ((m / 2 ^ e : Nat) : Int) < 2 ^ 63 := by
      have : ((m / 2 ^ e : Nat) : Int) ≤ (m : Int) := by exact_mod_cast hle
      linarith
    have : i64 (if neg then -((m / 2 ^ e : Nat) : Int) else ((m / 2 ^ e : Nat) : Int)) =
        .ok (if neg then -((m / 2 ^ e : Nat) : Int) else ((m / 2 ^ e : Nat) : Int)) := by
      have h0 : (0 : Int) ≤ ((m / 2 ^ e : Nat) : Int) := by positivity
      generalize ((m / 2 ^ e : Nat) : Int) = z at *
      cases neg <;> simp only [Bool.false_eq_true, if_false, if_true] <;> unfold i64 <;> rw [if_pos] <;> omega
    rw [this]
    exact ⟨_, 1, rfl, by omega, by omega⟩
  · rw [if_neg h1]
    have hd : i64 (m : Int) = .ok (m : Int) := i64_ok (by positivity) hmI
    obtain ⟨hs, hs61⟩ := shl64_pos he
    have hNp : 0 < shl64 e := by rw [hs]; exact_mod_cast Nat.pow_pos (by omega)
    obtain ⟨hf, hi⟩ := ra_first m (shl64 e) md 63 (by omega) hNp (by positivity) hmI
    obtain ⟨s', h, ha, hb⟩ := ra_bounds hs61 hmI 63 _ hi
    simp only [hd, Out.ok_bind, hf, h, Out.pure_eq]
    exact ⟨_, _, rfl, ha, hb⟩

theorem shl64_pow {e : Nat} (h : e ≤ 62) : shl64 e = ((2 ^ e : Nat) : Int) ∧ shl64 e < 2 ^ 63 := by
  unfold shl64
  rw [if_pos (by omega)]
  refine ⟨by push_cast; rfl, ?_⟩
  have : (2 : Nat) ^ e ≤ 2 ^ 62 := Nat.pow_le_pow_right (by omega) h
  have : (2 : Nat) ^ e < 2 ^ 63 := by omega
  exact_mod_cast this

/-- **C17 (exactness), exactly when.** A double `±m/2^e` in lowest terms (`m` odd or `e = 0`) whose
denominator `2^e` is below `md` is returned itself precisely if Euclid's algorithm needs at most
64 divisions for `m` and `2^e` (the loop is cut after 64 turns); otherwise the call returns a
fraction with a smaller denominator. -/
theorem C17_exact_iff (neg : Bool) (m e : Nat) (md : Int) (hm : m < 2 ^ 63) (he : e ≤ 62)
    (hred : m % 2 = 1 ∨ e = 0) (hmd : (2 ^ e : Int) < md) :
    (rationalApprox neg m e md = .ok (if neg then -(m : Int) else (m : Int), 2 ^ e) ↔ divisions m (2 ^ e) ≤ 64) ∧
    (¬ divisions m (2 ^ e) ≤ 64 → ∃ p q, rationalApprox neg m e md = .ok (p, q) ∧ q < 2 ^ e) := by
  have hmI : (m : Int) < 2 ^ 63 := by exact_mod_cast hm
  have hpow : (1 : Int) ≤ 2 ^ e := by exact_mod_cast Nat.one_le_two_pow
  have hd : i64 (m : Int) = .ok (m : Int) := i64_ok (by positivity) hmI
  obtain ⟨hs, hs63⟩ := shl64_pow he
  have hs' : shl64 e = 2 ^ e := by rw [hs]; push_cast; rfl
  have hNp : 0 < shl64 e := by omega
  obtain ⟨hf, hi⟩ := ra_first m (shl64 e) md 63 (by omega) hNp (by positivity) hmI
  have hg : Int.gcd (shl64 e) ((m : Int) % shl64 e) = 1 := by
    rw [Int.gcd_comm, Int.gcd_emod, hs, Int.gcd_natCast_natCast]
    rcases hred with h | h
    · apply Nat.Coprime.pow_right
      rw [Nat.coprime_two_right]
      exact Nat.odd_iff.mpr h
    · subst h; simp
  obtain ⟨s', h, h0, ha, hb⟩ := ra_exact_iff (by omega) hs63 hmI 63 _ hi hg
  have hdiv : divisions m (2 ^ e) = divisions (shl64 e).toNat ((m : Int) % shl64 e).toNat + 1 := by
    have h2 : (2 ^ e : Nat) ≠ 0 := by positivity
    rw [divisions_pos _ _ h2, hs]
    congr 1
  have hval : rationalApprox neg m e md = .ok (if (neg && decide (m ≠ 0)) = true then -s'.h1 else s'.h1, s'.k1) := by
    unfold rationalApprox
    rw [if_neg (by omega), hd]
    simp only [Out.ok_bind]
    rw [hf, h]
    rfl
  simp only at ha hb
  rw [hdiv, show ∀ x : Nat, x + 1 ≤ 64 ↔ x ≤ 63 from fun x => by omega, ← ha, hval]
  refine ⟨?_, ?_⟩
  · rw [Out.ok.injEq, Prod.mk.injEq, hs']
    constructor
    · rintro ⟨h1, h2⟩
      refine ⟨?_, h2⟩
      cases neg with
      | false => simpa using h1
      | true =>
        by_cases hz : m = 0
        · simp [hz] at h1; simp [hz, h1]
        · simp [hz] at h1; omega
    · rintro ⟨h1, h2⟩
      refine ⟨?_, h2⟩
      cases neg with
      | false => simpa using h1
      | true =>
        by_cases hz : m = 0
        · simp [hz] at h1; simp [hz, h1]
        · simp [hz]; omega
  · intro hno
    rw [ha] at hno
    exact ⟨_, _, rfl, by rw [← hs']; exact hb hno⟩

/-- **C17 (exactness).** A double `±m/2^e` in lowest terms whose denominator `2^e` is below `md`
and at most `2^44` is returned exactly, in lowest terms: by Lamé's theorem 64 divisions are
enough.  What is missing: larger denominators, for which the claim is false
(`C17_exact_false`, `C17_exact_iff`). -/
theorem C17_exact_partial (neg : Bool) (m e : Nat) (md : Int) (hm : m < 2 ^ 63) (he : e ≤ 44)
    (hred : m % 2 = 1 ∨ e = 0) (hmd : (2 ^ e : Int) < md) :
    rationalApprox neg m e md = .ok (if neg then -(m : Int) else (m : Int), 2 ^ e) := by
  rw [(C17_exact_iff neg m e md hm (by omega) hred hmd).1, divisions_pos _ _ (by positivity)]
  by_contra hc
  have hlt : m % 2 ^ e < 2 ^ e := Nat.mod_lt _ (by positivity)
  rcases divisions_fib 64 (2 ^ e) (m % 2 ^ e) hlt (by omega) with ⟨_, h⟩ | h
  · have hp : (2 : Nat) ^ e ≤ 2 ^ 44 := Nat.pow_le_pow_right (by omega) he
    have : Nat.fib (64 + 2) = 27777890035288 := by
      rw [Nat.fib_eq_fastFib]; decide +kernel
    omega
  · omega

/-- **C17 (exactness) is false of the code** for larger denominators: `5566755272523955/2^53`
(about 0.61803, a double in lowest terms) is not returned under the bound `2^60`, although its
denominator is far below it. -/
theorem C17_exact_false :
    rationalApprox false 5566755272523955 53 (2 ^ 60) = .ok (1999445204736823, 3235170305921413) ∧
    5566755272523955 % 2 = 1 ∧ (2 : Int) ^ 53 < 2 ^ 60 := by decide +kernel

-- hypotheses are met, and the function is not the identity: 0.25 and an approximated 1/3
example : rationalApprox false 1 2 4096 = .ok (1, 4) := by decide +kernel
example : rationalApprox false 6004799503160661 54 4096 = .ok (1, 3) := by decide +kernel

/-- **C17 fails** for tiny positive inputs: with `2^-64` (or any double that needs 64 or
more doublings) the doubling counter wraps to zero and the loop divides by it. -/
theorem C17_tiny_input_undefined (m e : Nat) (md : Int) (hm : m < 2 ^ 63) (he : 64 ≤ e) (hmd : 2 ≤ md) :
    rationalApprox false m e md = .ub := by
  have hmI : (m : Int) < 2 ^ 63 := by exact_mod_cast hm
  have hs : shl64 e = 0 := by unfold shl64; rw [if_neg (by omega), if_neg (by omega)]
  unfold rationalApprox
  rw [if_neg (by omega), i64_ok (by positivity) hmI]
  simp [hs, raLoop]

/-! ## C18 -/

/-- The document a reader expects: the concatenation of the template and the fields. -/
def specEnvelope (type description cborHex : Bytes) : Bytes :=
  ascii "{\n    \"type\": \"" ++ type ++ ascii "\",\n    \"description\": \"" ++ description ++
  ascii "\",\n    \"cborHex\": \"" ++ cborHex ++ ascii "\"\n}"

theorem chunks_flatten (t d c : Bytes) : (envelopeChunks t d c).flatten = specEnvelope t d c := by
  have h1 : ascii "{\n    \"type\": \"" = ascii "{\n" ++ ascii "    \"type\": \"" := by decide +kernel
  have h2 : ascii "\",\n    \"description\": \"" = ascii "\",\n" ++ ascii "    \"description\": \"" := by decide +kernel
  have h3 : ascii "\",\n    \"cborHex\": \"" = ascii "\",\n" ++ ascii "    \"cborHex\": \"" := by decide +kernel
  have h4 : ascii "\"\n}" = ascii "\"\n" ++ ascii "}" := by decide +kernel
  rw [specEnvelope, h1, h2, h3, h4]
  simp [envelopeChunks]

theorem flush_prefix (dk : Disk) (file pending : Bytes) :
    (flush dk file pending).1 <+: file ++ pending := List.take_prefix _ _

theorem flush_all (dk : Disk) (file pending : Bytes) (h : (flush dk file pending).2 = true) :
    (flush dk file pending).1 = file ++ pending := by
  simp only [flush, decide_eq_true_eq] at h ⊢
  exact List.take_of_length_le h

theorem putChunks_prefix (dk : Disk) : ∀ cs file pending,
    (putChunks dk cs file pending).1 <+: file ++ pending ++ cs.flatten ∧
    (∀ p, (putChunks dk cs file pending).2 = .ok p →
      (putChunks dk cs file pending).1 ++ p = file ++ pending ++ cs.flatten) ∧
    (∀ e, (putChunks dk cs file pending).2 = .throw e → e = .runtimeError) ∧ (putChunks dk cs file pending).2 ≠ .ub := by
  intro cs
  induction cs with
  | nil => intro file pending; simp [putChunks]
  | cons c cs ih =>
    intro file pending
    rw [putChunks]
    split
    · have := ih file (pending ++ c)
      simpa [List.append_assoc] using this
    · dsimp only
      split
      · rename_i h
        have := ih (flush dk file (pending ++ c)).1 []
        rw [flush_all dk file (pending ++ c) h] at this ⊢
        simpa [List.append_assoc] using this
      · refine ⟨?_, by simp, by simp, by simp⟩
        have := flush_prefix dk file (pending ++ c)
        refine List.IsPrefix.trans this ?_
        simp [List.flatten_cons, ← List.append_assoc, List.prefix_append]

theorem write_prefix (dk : Disk) (old t d c : Bytes) (ho : dk.openable = true) :
    (writeEnvelope dk old t d c).1 <+: specEnvelope t d c := by
  have h := putChunks_prefix dk (envelopeChunks t d c) [] []
  rw [chunks_flatten] at h
  simp only [List.nil_append] at h
  unfold writeEnvelope
  simp only [ho, Bool.not_true, Bool.false_eq_true, if_false]
  rcases hp : putChunks dk (envelopeChunks t d c) [] [] with ⟨file, r⟩
  rw [hp] at h
  cases r with
  | ok p =>
    simp only
    have := h.2.1 p rfl
    simp only at this
    rw [← this]
    exact flush_prefix dk file p
  | throw e => exact h.1
  | ub => exact h.1

/-- **C18 (what holds).** At every crash point the file holds the old content or an initial
part of the complete new document, and a run on a device with enough room that could
open the file returns normally and leaves exactly the complete document.  If the file
cannot be opened the call throws and the content is unchanged.
Missing from the full property: the write is not atomic, see the two theorems below. -/
theorem C18_envelope_partial (dk : Disk) (old t d c : Bytes) :
    (∀ f, CrashContent dk old t d c f → f = old ∨ f <+: specEnvelope t d c) ∧
    (dk.openable = true → (specEnvelope t d c).length ≤ dk.space →
      writeEnvelope dk old t d c = (specEnvelope t d c, .ok ())) ∧
    (dk.openable = false → writeEnvelope dk old t d c = (old, .throw .runtimeError)) := by
  refine ⟨?_, ?_, ?_⟩
  · rintro f (rfl | ⟨ho, hf⟩)
    · exact .inl rfl
    · exact .inr (hf.trans (write_prefix dk old t d c ho))
  · intro ho hs
    have key : ∀ cs file pending, (file ++ pending ++ cs.flatten).length ≤ dk.space →
        ∃ p, (putChunks dk cs file pending) = ((putChunks dk cs file pending).1, .ok p) := by
      intro cs
      induction cs with
      | nil => intro file pending _; exact ⟨pending, rfl⟩
      | cons c cs ih =>
        intro file pending hl
        rw [putChunks]
        split
        · exact ih file (pending ++ c) (by simpa [Nat.add_assoc] using hl)
        · dsimp only
          have hf : (flush dk file (pending ++ c)).2 = true := by
            simp only [flush, decide_eq_true_eq]
            simp only [List.length_append, List.flatten_cons] at hl ⊢
            omega
          rw [if_pos hf, flush_all dk file _ hf]
          exact ih _ [] (by simpa [Nat.add_assoc] using hl)
    obtain ⟨p, hp⟩ := key (envelopeChunks t d c) [] [] (by simpa [chunks_flatten] using hs)
    have h := putChunks_prefix dk (envelopeChunks t d c) [] []
    rw [chunks_flatten] at h
    simp only [List.nil_append] at h
    unfold writeEnvelope
    simp only [ho, Bool.not_true, Bool.false_eq_true, if_false]
    rw [hp] at h ⊢
    simp only
    have h2 := h.2.1 p rfl
    simp only at h2
    have : (flush dk (putChunks dk (envelopeChunks t d c) [] []).1 p).2 = true := by
      simp only [flush, decide_eq_true_eq]
      rw [h2]
      omega
    rw [flush_all _ _ _ this, h2]
  · intro ho
    unfold writeEnvelope
    simp [ho]

/-- **C18 is false of the code: no atomicity.**  Whatever the old content (longer than a
few bytes, say), there is a crash point at which it is already gone and the new document
is not complete: the file may be left empty, destroying the previous key. -/
theorem C18_crash_loses_key (dk : Disk) (old t d c : Bytes) (ho : dk.openable = true) (hne : old ≠ []) :
    ∃ f, CrashContent dk old t d c f ∧ f ≠ old ∧ f ≠ specEnvelope t d c :=
  ⟨[], .inr ⟨ho, List.nil_prefix⟩, fun h => hne h.symm, by
    intro h
    have : (specEnvelope t d c).length = 0 := by rw [← h]; rfl
    have h1 : (ascii "{\n    \"type\": \"").length = 15 := by decide +kernel
    simp only [specEnvelope, List.length_append] at this
    omega⟩

/-- **C18 is false of the code: silent truncation.**  When the document fits in the stream
buffer but not on the device, the call returns normally although the file is incomplete
(the error happens in the destructor, which swallows it). -/
theorem C18_silent_truncation (dk : Disk) (old t d c : Bytes) (ho : dk.openable = true)
    (hb : (specEnvelope t d c).length ≤ dk.bufCap) (hs : dk.space < (specEnvelope t d c).length) :
    (writeEnvelope dk old t d c).2 = .ok () ∧ (writeEnvelope dk old t d c).1 ≠ specEnvelope t d c := by
  have key : ∀ cs pending, (pending ++ cs.flatten).length ≤ dk.bufCap →
      putChunks dk cs [] pending = ([], .ok (pending ++ cs.flatten)) := by
    intro cs
    induction cs with
    | nil => intro pending _; simp [putChunks]
    | cons c cs ih =>
      intro pending hl
      rw [putChunks, if_pos (by simp only [List.length_append, List.flatten_cons] at hl ⊢; omega)]
      rw [ih (pending ++ c) (by simpa [Nat.add_assoc] using hl)]
      simp
  have hk := key (envelopeChunks t d c) [] (by simpa [chunks_flatten] using hb)
  rw [chunks_flatten] at hk
  unfold writeEnvelope
  simp only [ho, Bool.not_true, Bool.false_eq_true, if_false, hk, List.nil_append, true_and]
  intro h
  have := congrArg List.length h
  simp [flush] at this
  omega

example : ∃ (dk : Disk) (t d c : Bytes), dk.openable = true ∧ (specEnvelope t d c).length ≤ dk.bufCap ∧
    dk.space < (specEnvelope t d c).length := ⟨⟨true, 8192, 10⟩, [65], [66], [67], by decide +kernel⟩

/-- Fields without quotation marks can be read back from the document: different fields
give different documents. -/
theorem C18_fields_recoverable (t d c t' d' c' : Bytes) (ht : 34 ∉ t) (hd : 34 ∉ d) (hc : 34 ∉ c)
    (ht' : 34 ∉ t') (hd' : 34 ∉ d') (hc' : 34 ∉ c') (h : specEnvelope t d c = specEnvelope t' d' c') :
    t = t' ∧ d = d' ∧ c = c' := by
  have split : ∀ (x y : Bytes) (u v : Bytes), 34 ∉ x → 34 ∉ y → x ++ 34 :: u = y ++ 34 :: v → x = y ∧ u = v := by
    intro x
    induction x with
    | nil =>
      intro y u v _ hy h
      cases y with
      | nil => simpa using h
      | cons b y => simp at h; simp [← h.1] at hy
    | cons a x ih =>
      intro y u v hx hy h
      cases y with
      | nil => simp at h; simp [h.1] at hx
      | cons b y =>
        simp only [List.cons_append, List.cons.injEq] at h
        obtain ⟨h1, h2⟩ := ih y u v (by simp_all) (by simp_all) h.2
        exact ⟨by rw [h.1, h1], h2⟩
  have q : ∀ s : Bytes, (34 : UInt8) :: s = [34] ++ s := fun _ => rfl
  have e1 : ascii "\",\n    \"description\": \"" = 34 :: (ascii ",\n    \"description\": \"") := by decide +kernel
  have e2 : ascii "\",\n    \"cborHex\": \"" = 34 :: (ascii ",\n    \"cborHex\": \"") := by decide +kernel
  have e3 : ascii "\"\n}" = 34 :: (ascii "\n}") := by decide +kernel
  unfold specEnvelope at h
  simp only [List.append_assoc] at h
  have h := List.append_cancel_left h
  rw [e1, e2, e3] at h
  simp only [List.cons_append] at h
  obtain ⟨r1, h⟩ := split _ _ _ _ ht ht' h
  have h := List.append_cancel_left h
  obtain ⟨r2, h⟩ := split _ _ _ _ hd hd' h
  have h := List.append_cancel_left h
  obtain ⟨r3, _⟩ := split _ _ _ _ hc hc' h
  exact ⟨r1, r2, r3⟩

end Cardano.Util
