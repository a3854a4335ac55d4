import Verif.Props.Cbor
import Verif.Lemmas.CborSized
import Verif.Spec.Rfc8949

/-! # C47: the encoder and the parser against RFC 8949 -/

namespace Cardano.Cbor

open Cardano.Spec.Rfc8949

theorem head_parse {m n : Nat} {h : Bytes} (hh : Head m n h) (rest : Bytes) :
    ∃ info, parseHeader (h ++ rest) = some (m, info, n, rest) := by
  cases hh with
  | @short c hn hc =>
    refine ⟨n, ?_⟩
    rw [List.cons_append, List.nil_append, parseHeader]
    have e1 : c.toNat / 32 = m := by omega
    have e2 : c.toNat % 32 = n := by omega
    simp only [e1, e2, if_pos hn]
  | @long c arg k hk hc hl hb =>
    refine ⟨24 + k, ?_⟩
    rw [List.cons_append, parseHeader]
    have e1 : c.toNat / 32 = m := by omega
    have e2 : c.toNat % 32 = 24 + k := by omega
    simp only [e1, e2]
    rw [if_neg (by omega), if_pos (by omega), takeN_append _ _ _ (by rw [hl, Nat.add_sub_cancel_left])]
    simp [hb]

theorem head_length_pos {m n : Nat} {h : Bytes} (hh : Head m n h) : 1 ≤ h.length := by
  cases hh <;> simp

theorem parse_head {b : Bytes} {m info n : Nat} {rest : Bytes} (h : parseHeader b = some (m, info, n, rest)) :
    ∃ hd, b = hd ++ rest ∧ Head m n hd ∧ (info < 24 → ∃ c : UInt8, hd = [c] ∧ c.toNat = 32 * m + info) := by
  cases b with
  | nil => simp [parseHeader] at h
  | cons c r =>
    simp only [parseHeader] at h
    split at h
    · next hi =>
      simp only [Option.some.injEq, Prod.mk.injEq] at h
      obtain ⟨rfl, rfl, rfl, rfl⟩ := h
      exact ⟨[c], rfl, .short hi (by omega), fun _ => ⟨c, rfl, by omega⟩⟩
    · next hi =>
      split at h
      · next hi' =>
        simp only [Option.map_eq_some_iff, Prod.exists, Prod.mk.injEq] at h
        obtain ⟨a, r', hk, rfl, rfl, rfl, rfl⟩ := h
        obtain ⟨hl, rfl⟩ := takeN_eq hk
        exact ⟨c :: a, rfl, .long (k := c.toNat % 32 - 24) (by omega) (by omega) hl rfl, fun h => absurd h hi⟩
      · simp at h

theorem costList_bytes (ps : List (Item × Bytes)) (h : ∀ p ∈ ps, cost p.1 + 1 ≤ 2 * p.2.length) :
    costList (ps.map (·.1)) ≤ 2 * (ps.map (·.2)).flatten.length := by
  induction ps with
  | nil => simp [costList]
  | cons p ps ih =>
    have h1 := h p (by simp)
    have h2 := ih fun q hq => h q (by simp [hq])
    simp only [List.map_cons, costList, List.flatten_cons, List.length_append]
    omega

theorem encodes_cost {i : Item} {b : Bytes} (h : Encodes i b) : cost i + 1 ≤ 2 * b.length := by
  induction h with
  | uint hh => have := head_length_pos hh; simp only [cost]; omega
  | nint _ hh => have := head_length_pos hh; simp only [cost]; omega
  | bstr hh => have := head_length_pos hh; simp only [cost, List.length_append]; omega
  | tstr hh => have := head_length_pos hh; simp only [cost, List.length_append]; omega
  | array hh _ ih =>
    have := head_length_pos hh
    have := costList_bytes _ ih
    simp only [cost, List.length_append]; omega
  | map _ hh _ ih =>
    have := head_length_pos hh
    have := costList_bytes _ ih
    simp only [cost, List.length_append]; omega
  | tag hh _ ih => have := head_length_pos hh; simp only [cost, List.length_append]; omega
  | false => simp [cost]
  | true => simp [cost]
  | null => simp [cost]

theorem encodes_parseList (ps : List (Item × Bytes))
    (h : ∀ p ∈ ps, ∀ f rest, cost p.1 ≤ f → parseF f (p.2 ++ rest) = some (p.1, rest)) :
    ∀ f rest, costList (ps.map (·.1)) ≤ f → parseList f ps.length ((ps.map (·.2)).flatten ++ rest) = some (ps.map (·.1), rest) := by
  induction ps with
  | nil => intro f rest _; cases f <;> simp [parseList]
  | cons p ps ih =>
    intro f rest hf
    simp only [List.map_cons, costList] at hf
    cases f with
    | zero => omega
    | succ f =>
      rw [List.length_cons, parseList, List.map_cons, List.flatten_cons, List.append_assoc, h p (by simp) f _ (by omega)]
      simp [ih (fun q hq => h q (by simp [hq])) f rest (by omega)]

theorem encodes_parseF {i : Item} {b : Bytes} (h : Encodes i b) :
    ∀ f rest, cost i ≤ f → parseF f (b ++ rest) = some (i, rest) := by
  induction h with
  | uint hh =>
    intro f rest hf
    obtain ⟨info, hp⟩ := head_parse hh rest
    cases f with | zero => simp [cost] at hf | succ f =>
    rw [parseF, hp]; rfl
  | nint hn hh =>
    intro f rest hf
    obtain ⟨info, hp⟩ := head_parse hh rest
    cases f with | zero => simp [cost] at hf | succ f =>
    rw [parseF, hp]; simp [hn]
  | @bstr b h hh =>
    intro f rest hf
    obtain ⟨info, hp⟩ := head_parse hh (b ++ rest)
    cases f with | zero => simp [cost] at hf | succ f =>
    rw [parseF, List.append_assoc, hp]; simp [takeN_append]
  | @tstr b h hh =>
    intro f rest hf
    obtain ⟨info, hp⟩ := head_parse hh (b ++ rest)
    cases f with | zero => simp [cost] at hf | succ f =>
    rw [parseF, List.append_assoc, hp]; simp [takeN_append]
  | @array ps h hh _ ih =>
    intro f rest hf
    obtain ⟨info, hp⟩ := head_parse hh ((ps.map (·.2)).flatten ++ rest)
    cases f with | zero => simp [cost] at hf | succ f =>
    rw [parseF, List.append_assoc, hp]
    simp only [cost] at hf
    simp [encodes_parseList ps ih f rest (by omega)]
  | @map ps n h hl hh _ ih =>
    intro f rest hf
    obtain ⟨info, hp⟩ := head_parse hh ((ps.map (·.2)).flatten ++ rest)
    cases f with | zero => simp [cost] at hf | succ f =>
    rw [parseF, List.append_assoc, hp]
    simp only [cost] at hf
    simp [← hl, encodes_parseList ps ih f rest (by omega)]
  | @tag n i h b hh _ ih =>
    intro f rest hf
    obtain ⟨info, hp⟩ := head_parse hh (b ++ rest)
    cases f with | zero => simp [cost] at hf | succ f =>
    rw [parseF, List.append_assoc, hp]
    simp only [cost] at hf
    simp [ih f rest (by omega)]
  | false => intro f rest hf; cases f with | zero => simp [cost] at hf | succ f => simp [parseF, parseHeader]
  | true => intro f rest hf; cases f with | zero => simp [cost] at hf | succ f => simp [parseF, parseHeader]
  | null => intro f rest hf; cases f with | zero => simp [cost] at hf | succ f => simp [parseF, parseHeader]

theorem byte_of_toNat {c : UInt8} {n : Nat} (h : c.toNat = n) (hn : n < 256) : c = UInt8.ofNat n := by
  apply UInt8.toNat_inj.mp
  rw [h]; simp; omega

theorem parseF_encodes : ∀ f : Nat,
    (∀ b i r, parseF f b = some (i, r) → ∃ p, b = p ++ r ∧ Encodes i p) ∧
    (∀ n b l r, parseList f n b = some (l, r) → ∃ ps : List (Item × Bytes), ps.length = n ∧ ps.map (·.1) = l ∧
      b = (ps.map (·.2)).flatten ++ r ∧ ∀ p ∈ ps, Encodes p.1 p.2) := by
  intro f
  induction f with
  | zero =>
    refine ⟨fun b i r h => by simp [parseF] at h, fun n b l r h => ?_⟩
    cases n with
    | zero =>
      simp only [parseList, Option.some.injEq, Prod.mk.injEq] at h
      obtain ⟨rfl, rfl⟩ := h; exact ⟨[], rfl, rfl, rfl, by simp⟩
    | succ n => simp [parseList] at h
  | succ f ih =>
    refine ⟨fun b i r h => ?_, fun n b l r h => ?_⟩
    · simp only [parseF] at h
      split at h
      · simp at h
      · next major info n rest hh =>
        obtain ⟨hd, rfl, hhd, hc⟩ := parse_head hh
        obtain ⟨-, -, h8⟩ := parseHeader_rest hh
        split at h
        · simp only [Option.some.injEq, Prod.mk.injEq] at h
          obtain ⟨rfl, rfl⟩ := h
          exact ⟨hd, rfl, .uint hhd⟩
        · split at h
          · next hn =>
            simp only [Option.some.injEq, Prod.mk.injEq] at h
            obtain ⟨rfl, rfl⟩ := h
            exact ⟨hd, rfl, .nint hn hhd⟩
          · simp at h
        · simp only [Option.map_eq_some_iff, Prod.exists, Prod.mk.injEq] at h
          obtain ⟨a, r', hk, rfl, rfl⟩ := h
          obtain ⟨rfl, rfl⟩ := takeN_eq hk
          exact ⟨hd ++ a, by rw [List.append_assoc], .bstr hhd⟩
        · simp only [Option.map_eq_some_iff, Prod.exists, Prod.mk.injEq] at h
          obtain ⟨a, r', hk, rfl, rfl⟩ := h
          obtain ⟨rfl, rfl⟩ := takeN_eq hk
          exact ⟨hd ++ a, by rw [List.append_assoc], .tstr hhd⟩
        · simp only [Option.map_eq_some_iff, Prod.exists, Prod.mk.injEq] at h
          obtain ⟨a, r', hk, rfl, rfl⟩ := h
          obtain ⟨ps, hl, rfl, rfl, hp⟩ := ih.2 _ _ _ _ hk
          exact ⟨_, by rw [← List.append_assoc], .array (hl ▸ hhd) hp⟩
        · simp only [Option.map_eq_some_iff, Prod.exists, Prod.mk.injEq] at h
          obtain ⟨a, r', hk, rfl, rfl⟩ := h
          obtain ⟨ps, hl, rfl, rfl, hp⟩ := ih.2 _ _ _ _ hk
          exact ⟨_, by rw [← List.append_assoc], .map hl hhd hp⟩
        · simp only [Option.map_eq_some_iff, Prod.exists, Prod.mk.injEq] at h
          obtain ⟨a, r', hk, rfl, rfl⟩ := h
          obtain ⟨p, rfl, hp⟩ := ih.1 _ _ _ hk
          exact ⟨_, by rw [← List.append_assoc], .tag hhd hp⟩
        · next m0 m1 m2 m3 m4 m5 m6 =>
          have h7 : major = 7 := by
            simp only [imp_false] at m0 m1 m2 m3 m4 m5 m6
            omega
          subst h7
          split at h
          · next hi =>
            obtain ⟨c, rfl, e⟩ := hc (by omega)
            simp only [Option.some.injEq, Prod.mk.injEq] at h
            obtain ⟨rfl, rfl⟩ := h
            rw [byte_of_toNat (c := c) (n := 0xF4) (by omega) (by omega)]
            exact ⟨[0xF4], rfl, .false⟩
          · split at h
            · next hi =>
              obtain ⟨c, rfl, e⟩ := hc (by omega)
              simp only [Option.some.injEq, Prod.mk.injEq] at h
              obtain ⟨rfl, rfl⟩ := h
              rw [byte_of_toNat (c := c) (n := 0xF5) (by omega) (by omega)]
              exact ⟨[0xF5], rfl, .true⟩
            · split at h
              · next hi =>
                obtain ⟨c, rfl, e⟩ := hc (by omega)
                simp only [Option.some.injEq, Prod.mk.injEq] at h
                obtain ⟨rfl, rfl⟩ := h
                rw [byte_of_toNat (c := c) (n := 0xF6) (by omega) (by omega)]
                exact ⟨[0xF6], rfl, .null⟩
              · simp at h
    · cases n with
      | zero =>
        simp only [parseList, Option.some.injEq, Prod.mk.injEq] at h
        obtain ⟨rfl, rfl⟩ := h; exact ⟨[], rfl, rfl, rfl, by simp⟩
      | succ n =>
        simp only [parseList] at h
        split at h
        · simp at h
        · next i r' hk =>
          simp only [Option.map_eq_some_iff, Prod.exists, Prod.mk.injEq] at h
          obtain ⟨l', r'', hl, rfl, rfl⟩ := h
          obtain ⟨p, rfl, hp⟩ := ih.1 _ _ _ hk
          obtain ⟨ps, e1, e2, rfl, hps⟩ := ih.2 _ _ _ _ hl
          refine ⟨(i, p) :: ps, by simp [e1], by simp [e2], by simp, ?_⟩
          intro q hq
          rcases List.mem_cons.mp hq with rfl | hq
          · exact hp
          · exact hps q hq

/-- **C47** against RFC 8949: the parser returns an item exactly if the bytes begin with an encoding of that item, in whatever
length of argument. -/
theorem C47_parse_iff (b : Bytes) (i : Item) : parse b = some i ↔ ∃ p rest, b = p ++ rest ∧ Encodes i p := by
  constructor
  · intro h
    unfold parse at h
    simp only [Option.map_eq_some_iff, Prod.exists, exists_and_right, exists_eq_right] at h
    obtain ⟨r, h⟩ := h
    obtain ⟨p, e, hp⟩ := (parseF_encodes _).1 _ _ _ h
    exact ⟨p, r, e, hp⟩
  · rintro ⟨p, rest, rfl, hp⟩
    unfold parse
    rw [encodes_parseF hp _ rest (by have := encodes_cost hp; simp; omega)]
    rfl

/-- **C47** against RFC 8949: no byte string begins with encodings of two items, or with two encodings of one item. -/
theorem C47_prefix_free (i j : Item) (p q r s : Bytes) (hp : Encodes i p) (hq : Encodes j q) (h : p ++ r = q ++ s) :
    i = j ∧ p = q ∧ r = s := by
  have h1 := encodes_parseF hp (cost i + cost j) r (by omega)
  have h2 := encodes_parseF hq (cost i + cost j) s (by omega)
  rw [h, h2] at h1
  simp only [Option.some.injEq, Prod.mk.injEq] at h1
  obtain ⟨rfl, rfl⟩ := h1
  exact ⟨rfl, List.append_cancel_right h, rfl⟩

theorem head_enc (m n : Nat) (hm : m < 8) (hn : n < 2 ^ 64) : Head m n (encHeader m n) := by
  have long : ∀ k, k ≤ 3 → n < 256 ^ (2 ^ k) → Head m n (UInt8.ofNat (m * 32 + (24 + k)) :: Util.packBE (2 ^ k) n) := by
    intro k hk hlt
    refine .long hk ?_ (Util.packBE_length _ _) (by rw [Util.beNat_packBE, Nat.mod_eq_of_lt hlt])
    rw [hdrByte m (24 + k) hm (by omega)]; omega
  unfold encHeader
  split
  · next h => exact .short h (by rw [hdrByte m n hm (by omega)]; omega)
  · split
    · exact long 0 (by omega) (by simpa using ‹n < 2 ^ 8›)
    · split
      · exact long 1 (by omega) (by simpa using ‹n < 2 ^ 16›)
      · split
        · exact long 2 (by omega) (by simpa using ‹n < 2 ^ 32›)
        · exact long 3 (by omega) (by simpa using hn)

theorem head_shortest {m n : Nat} {h : Bytes} (hh : Head m n h) : (encHeader m n).length ≤ h.length := by
  rw [C47_shortest_header]
  cases hh with
  | short hn hc => simp [hn]
  | @long c arg k hk hc hl hb =>
    have hlt : n < 256 ^ arg.length := hb ▸ beNat_lt arg
    rw [hl] at hlt
    have hk : k = 0 ∨ k = 1 ∨ k = 2 ∨ k = 3 := by omega
    have e1 : (256 : Nat) ^ 2 ^ 0 = 2 ^ 8 := by decide
    have e2 : (256 : Nat) ^ 2 ^ 1 = 2 ^ 16 := by decide
    have e3 : (256 : Nat) ^ 2 ^ 2 = 2 ^ 32 := by decide
    rw [List.length_cons, hl]
    rcases hk with rfl | rfl | rfl | rfl
    · rw [e1] at hlt; (repeat' split) <;> omega
    · rw [e2] at hlt; (repeat' split) <;> omega
    · rw [e3] at hlt; (repeat' split) <;> omega
    · (repeat' split) <;> omega

mutual
theorem enc_encodes : ∀ i : Item, WF i → Encodes i (enc i)
  | .uint n, h => by cases h with | uint hn => exact .uint (head_enc 0 n (by omega) hn)
  | .nint n, h => by cases h with | nint hn => exact .nint hn (head_enc 1 n (by omega) (by omega))
  | .bstr b, h => by cases h with | bstr hn => exact .bstr (head_enc 2 _ (by omega) hn)
  | .tstr b, h => by cases h with | tstr hn => exact .tstr (head_enc 3 _ (by omega) hn)
  | .array l, h => by
    cases h with | array hn hl =>
    obtain ⟨ps, e1, e2, hp⟩ := encList_encodes l hl
    have : ps.length = l.length := by rw [← e1]; simp
    have := Encodes.array (ps := ps) (h := encHeader 4 l.length) (this.symm ▸ head_enc 4 l.length (by omega) hn) hp
    rw [e1, e2] at this
    simpa only [enc] using this
  | .map l, h => by
    cases h with | map hn he hl =>
    obtain ⟨ps, e1, e2, hp⟩ := encList_encodes l hl
    have : ps.length = l.length := by rw [← e1]; simp
    have := Encodes.map (ps := ps) (n := l.length / 2) (by omega) (head_enc 5 (l.length / 2) (by omega) (by omega)) hp
    rw [e1, e2] at this
    simpa only [enc] using this
  | .tag n i, h => by
    cases h with | tag hn hi =>
    simpa only [enc] using Encodes.tag (head_enc 6 n (by omega) hn) (enc_encodes i hi)
  | .bool .false, _ => by simpa only [enc] using Encodes.false
  | .bool .true, _ => by simpa only [enc] using Encodes.true
  | .null, _ => by simpa only [enc] using Encodes.null
theorem encList_encodes : ∀ l : List Item, (∀ i ∈ l, WF i) → ∃ ps : List (Item × Bytes), ps.map (·.1) = l ∧
    (ps.map (·.2)).flatten = encList l ∧ ∀ p ∈ ps, Encodes p.1 p.2
  | [], _ => ⟨[], rfl, by simp [encList], by simp⟩
  | i :: l, h => by
    obtain ⟨ps, e1, e2, hp⟩ := encList_encodes l fun j hj => h j (by simp [hj])
    refine ⟨(i, enc i) :: ps, by simp [e1], by simp [e2, encList], ?_⟩
    intro q hq
    rcases List.mem_cons.mp hq with rfl | hq
    · exact enc_encodes i (h i (by simp))
    · exact hp q hq
end

theorem encList_shortest (ps : List (Item × Bytes)) (h : ∀ p ∈ ps, (enc p.1).length ≤ p.2.length) :
    (encList (ps.map (·.1))).length ≤ (ps.map (·.2)).flatten.length := by
  induction ps with
  | nil => simp [encList]
  | cons p ps ih =>
    have h1 := h p (by simp)
    have h2 := ih fun q hq => h q (by simp [hq])
    simp only [List.map_cons, encList, List.flatten_cons, List.length_append]
    omega

/-- **C47** against RFC 8949: the encoder writes an encoding of the item, and no encoding of it is shorter. -/
theorem C47_encodes_shortest (i : Item) (h : WF i) : Encodes i (enc i) ∧ ∀ p, Encodes i p → (enc i).length ≤ p.length := by
  refine ⟨enc_encodes i h, fun p hp => ?_⟩
  clear h
  induction hp with
  | uint hh => simpa only [enc] using head_shortest hh
  | nint _ hh => simpa only [enc] using head_shortest hh
  | bstr hh => have := head_shortest hh; simp only [enc, List.length_append]; omega
  | tstr hh => have := head_shortest hh; simp only [enc, List.length_append]; omega
  | array hh _ ih =>
    have := head_shortest hh
    have := encList_shortest _ ih
    simp only [enc, List.length_append, List.length_map]; omega
  | @map ps n h hl hh _ ih =>
    have := head_shortest hh
    have := encList_shortest _ ih
    have e : ps.length / 2 = n := by omega
    simp only [enc, List.length_append, List.length_map, e]; omega
  | tag hh _ ih => have := head_shortest hh; simp only [enc, List.length_append]; omega
  | false => simp [enc]
  | true => simp [enc]
  | null => simp [enc]

/-- A long-winded encoding (array header and integer in more bytes than needed) and the shortest one of the same item. -/
example : Encodes (.array [.uint 5, .bool true]) [0x98, 0x02, 0x19, 0x00, 0x05, 0xF5] ∧
    parse [0x98, 0x02, 0x19, 0x00, 0x05, 0xF5, 0xFF] = some (.array [.uint 5, .bool true]) ∧
    enc (.array [.uint 5, .bool true]) = [0x82, 0x05, 0xF5] := by
  have h : Encodes (.array [.uint 5, .bool true]) [0x98, 0x02, 0x19, 0x00, 0x05, 0xF5] :=
    Encodes.array (ps := [(.uint 5, [0x19, 0x00, 0x05]), (.bool true, [0xF5])]) (h := [0x98, 0x02])
      (.long (k := 0) (by omega) rfl rfl rfl) (by
        intro p hp
        simp only [List.mem_cons, List.not_mem_nil, or_false] at hp
        rcases hp with rfl | rfl
        · exact .uint (.long (k := 1) (by omega) rfl rfl rfl)
        · exact .true)
  exact ⟨h, (C47_parse_iff _ _).mpr ⟨_, [0xFF], rfl, h⟩, by simp [enc, encList, encHeader]⟩

end Cardano.Cbor
