import Verif.Model.Cbor
import Verif.Lemmas.Util

namespace Cardano.Cbor

theorem takeN_append (a b : Bytes) (n : Nat) (h : n = a.length) : takeN n (a ++ b) = some (a, b) := by
  subst h; simp [takeN]

theorem hdrByte (major info : Nat) (hm : major < 8) (hi : info < 32) :
    (UInt8.ofNat (major * 32 + info)).toNat = major * 32 + info := by
  simp; omega

/-- What the parser sees of an encoded header. -/
theorem parseHeader_enc (major n : Nat) (rest : Bytes) (hm : major < 8) (hn : n < 2 ^ 64) :
    ∃ info, parseHeader (encHeader major n ++ rest) = some (major, info, n, rest) ∧ (n < 24 → info = n) := by
  have long : ∀ (k w : Nat), k ≤ 27 → 24 ≤ k → w = 2 ^ (k - 24) → n < 256 ^ w →
      parseHeader ((UInt8.ofNat (major * 32 + k) :: Util.packBE w n) ++ rest) = some (major, k, n, rest) := by
    intro k w hk hk' hw hlt
    rw [List.cons_append, parseHeader]
    simp only [hdrByte major k hm (by omega)]
    have e1 : (major * 32 + k) / 32 = major := by omega
    have e2 : (major * 32 + k) % 32 = k := by omega
    rw [e1, e2, if_neg (by omega), if_pos hk, takeN_append _ _ _ (by rw [Util.packBE_length, hw])]
    simp [Util.beNat_packBE, Nat.mod_eq_of_lt hlt]
  unfold encHeader
  split
  · rename_i h
    refine ⟨n, ?_, fun _ => rfl⟩
    rw [List.cons_append, parseHeader]
    simp only [hdrByte major n hm (by omega)]
    have e1 : (major * 32 + n) / 32 = major := by omega
    have e2 : (major * 32 + n) % 32 = n := by omega
    rw [e1, e2, if_pos h]; rfl
  · split
    · exact ⟨24, long 24 1 (by omega) (by omega) (by decide) (by simpa using ‹n < 2 ^ 8›), by omega⟩
    · split
      · exact ⟨25, long 25 2 (by omega) (by omega) (by decide) (by simpa using ‹n < 2 ^ 16›), by omega⟩
      · split
        · exact ⟨26, long 26 4 (by omega) (by omega) (by decide) (by simpa using ‹n < 2 ^ 32›), by omega⟩
        · exact ⟨27, long 27 8 (by omega) (by omega) (by decide) (by simpa using hn), by omega⟩

theorem encHeader_length_pos (major n) : 1 ≤ (encHeader major n).length := by
  unfold encHeader; split
  · simp
  · split
    · simp
    · split
      · simp
      · split <;> simp

mutual
/-- recursion budget the parser needs -/
def cost : Item → Nat
  | .array l => 1 + costList l
  | .map l => 1 + costList l
  | .tag _ i => 1 + cost i
  | _ => 1
def costList : List Item → Nat
  | [] => 0
  | i :: l => 1 + cost i + costList l
end

mutual
theorem cost_le : ∀ i : Item, cost i + 1 ≤ 2 * (enc i).length
  | .uint n => by have := encHeader_length_pos 0 n; simp only [cost, enc]; omega
  | .nint n => by have := encHeader_length_pos 1 n; simp only [cost, enc]; omega
  | .bstr b => by have := encHeader_length_pos 2 b.length; simp only [cost, enc, List.length_append]; omega
  | .tstr b => by have := encHeader_length_pos 3 b.length; simp only [cost, enc, List.length_append]; omega
  | .array l => by
    have := encHeader_length_pos 4 l.length
    have := costList_le l
    simp only [cost, enc, List.length_append]; omega
  | .map l => by
    have := encHeader_length_pos 5 (l.length / 2)
    have := costList_le l
    simp only [cost, enc, List.length_append]; omega
  | .tag n i => by
    have := encHeader_length_pos 6 n
    have := cost_le i
    simp only [cost, enc, List.length_append]; omega
  | .bool b => by cases b <;> simp [cost, enc]
  | .null => by simp [cost, enc]
theorem costList_le : ∀ l : List Item, costList l ≤ 2 * (encList l).length
  | [] => by simp [costList]
  | i :: l => by
    have := cost_le i
    have := costList_le l
    simp only [costList, encList, List.length_append]; omega
end

mutual
theorem parseF_enc : ∀ (i : Item), WF i → ∀ (f : Nat) (rest : Bytes), cost i ≤ f →
    parseF f (enc i ++ rest) = some (i, rest)
  | .uint n, h, f, rest, hf => by
    cases h with | uint hn =>
    obtain ⟨info, hp, _⟩ := parseHeader_enc 0 n rest (by omega) hn
    cases f with | zero => simp [cost] at hf | succ f =>
    rw [parseF, enc, hp]; rfl
  | .nint n, h, f, rest, hf => by
    cases h with | nint hn =>
    obtain ⟨info, hp, _⟩ := parseHeader_enc 1 n rest (by omega) (by omega)
    cases f with | zero => simp [cost] at hf | succ f =>
    rw [parseF, enc, hp]; simp [hn]
  | .bstr b, h, f, rest, hf => by
    cases h with | bstr hn =>
    obtain ⟨info, hp, _⟩ := parseHeader_enc 2 b.length (b ++ rest) (by omega) hn
    cases f with | zero => simp [cost] at hf | succ f =>
    rw [parseF, enc, List.append_assoc, hp]
    simp [takeN_append]
  | .tstr b, h, f, rest, hf => by
    cases h with | tstr hn =>
    obtain ⟨info, hp, _⟩ := parseHeader_enc 3 b.length (b ++ rest) (by omega) hn
    cases f with | zero => simp [cost] at hf | succ f =>
    rw [parseF, enc, List.append_assoc, hp]
    simp [takeN_append]
  | .array l, h, f, rest, hf => by
    cases h with | array hn hl =>
    obtain ⟨info, hp, _⟩ := parseHeader_enc 4 l.length (encList l ++ rest) (by omega) hn
    cases f with | zero => simp [cost] at hf | succ f =>
    rw [parseF, enc, List.append_assoc, hp]
    simp only [cost] at hf
    simp [parseList_enc l hl f rest (by omega)]
  | .map l, h, f, rest, hf => by
    cases h with | map hn he hl =>
    obtain ⟨info, hp, _⟩ := parseHeader_enc 5 (l.length / 2) (encList l ++ rest) (by omega) (by omega)
    cases f with | zero => simp [cost] at hf | succ f =>
    rw [parseF, enc, List.append_assoc, hp]
    simp only [cost] at hf
    have e : 2 * (l.length / 2) = l.length := by omega
    simp [e, parseList_enc l hl f rest (by omega)]
  | .tag n i, h, f, rest, hf => by
    cases h with | tag hn hi =>
    obtain ⟨info, hp, _⟩ := parseHeader_enc 6 n (enc i ++ rest) (by omega) hn
    cases f with | zero => simp [cost] at hf | succ f =>
    rw [parseF, enc, List.append_assoc, hp]
    simp only [cost] at hf
    simp [parseF_enc i hi f rest (by omega)]
  | .bool b, _, f, rest, hf => by
    cases f with | zero => simp [cost] at hf | succ f =>
    cases b <;> simp [parseF, enc, parseHeader]
  | .null, _, f, rest, hf => by
    cases f with | zero => simp [cost] at hf | succ f =>
    simp [parseF, enc, parseHeader]
theorem parseList_enc : ∀ (l : List Item), (∀ i ∈ l, WF i) → ∀ (f : Nat) (rest : Bytes), costList l ≤ f →
    parseList f l.length (encList l ++ rest) = some (l, rest)
  | [], _, f, rest, _ => by cases f <;> simp [parseList, encList]
  | i :: l, h, f, rest, hf => by
    simp only [costList] at hf
    cases f with | zero => omega | succ f =>
    rw [List.length_cons, parseList, encList, List.append_assoc,
      parseF_enc i (h i (by simp)) f _ (by omega)]
    simp [parseList_enc l (fun j hj => h j (by simp [hj])) f rest (by omega)]
end

/-- The parser reads back the first item, whatever follows. -/
theorem parse_enc_append (i : Item) (h : WF i) (rest : Bytes) : parse (enc i ++ rest) = some i := by
  unfold parse
  rw [parseF_enc i h _ rest (by have := cost_le i; simp; omega)]
  rfl

theorem parse_enc (i : Item) (h : WF i) : parse (enc i) = some i := by
  have := parse_enc_append i h []
  simpa using this

end Cardano.Cbor
