import Verif.Props.Address
import Verif.Props.Bip173

/-! # C62: Shelley address format (CIP-19) -/

namespace Cardano.Cip19

/-- Network number in the low nibble of the header. -/
def networkNumber : Address.NetworkID → Nat
  | .mainnet => 1
  | .testnet => 0

/-- Header byte: type number in the high nibble, network number in the low nibble. -/
def header (type : Nat) (nid : Address.NetworkID) : UInt8 := UInt8.ofNat (16 * type + networkNumber nid)

/-- Prefix of the text form. -/
def hrp (kind : String) : Address.NetworkID → Bytes
  | .mainnet => ascii kind
  | .testnet => ascii kind ++ ascii "_test"

end Cardano.Cip19

namespace Cardano.Address
open Cip19 Bip173

theorem header_spec (nid : NetworkID) :
    buildHeaderByte typeBase (networkTag nid) = header 0 nid ∧
    buildHeaderByte typeEnterprise (networkTag nid) = header 6 nid ∧
    buildHeaderByte typeRewards (networkTag nid) = header 14 nid := by
  cases nid <;> decide

theorem tag_spec (nid : NetworkID) :
    (getNetworkTag (header 0 nid) = 1 ↔ nid = .mainnet) ∧ (getNetworkTag (header 6 nid) = 1 ↔ nid = .mainnet) ∧
    (getNetworkTag (header 14 nid) = 1 ↔ nid = .mainnet) := by
  cases nid <;> decide

theorem text_spec (pre : String) (data s : Bytes) (h1 : ascii pre ≠ [])
    (e : Bech32.encode (ascii pre) data = .ok s) : IsString s (ascii pre) data ∧ s.map toLower = s :=
  (Bech32.C61_bip173 s (ascii pre) data).2 e h1

/-- **C62.** The byte form of an address is its CIP-19 header byte (type 0 for base, 6 for
enterprise, 14 for rewards addresses; network 1 for mainnet, 0 for testnet) followed by
the key hashes, payment first; the text form is the lower-case Bech32 string of these bytes
with prefix `addr`, `addr_test`, `stake` or `stake_test`. -/
theorem C62_cip19_format (nid : NetworkID) (pmt stk s : Bytes) :
    (Base.mk' nid pmt stk).toBytes = header 0 nid :: (pmt ++ stk) ∧
    (enterprise nid pmt).toBytes = header 6 nid :: pmt ∧
    (rewards nid stk).toBytes = header 14 nid :: stk ∧
    ((Base.mk' nid pmt stk).toBech32 = .ok s →
      IsString s (hrp "addr" nid) (header 0 nid :: (pmt ++ stk)) ∧ s.map toLower = s) ∧
    (enterpriseToBech32 (enterprise nid pmt) = .ok s →
      IsString s (hrp "addr" nid) (header 6 nid :: pmt) ∧ s.map toLower = s) ∧
    (rewardsToBech32 (rewards nid stk) = .ok s →
      IsString s (hrp "stake" nid) (header 14 nid :: stk) ∧ s.map toLower = s) := by
  obtain ⟨h0, h6, h14⟩ := header_spec nid
  obtain ⟨t0, t6, t14⟩ := tag_spec nid
  have b0 : (Base.mk' nid pmt stk).toBytes = header 0 nid :: (pmt ++ stk) := by
    unfold Base.toBytes Base.mk'; rw [h0]
  have b6 : (enterprise nid pmt).toBytes = header 6 nid :: pmt := by
    unfold Single.toBytes enterprise Single.mk'; rw [h6]
  have b14 : (rewards nid stk).toBytes = header 14 nid :: stk := by
    unfold Single.toBytes rewards Single.mk'; rw [h14]
  have a1 : ascii "addr" ++ ascii "_test" = ascii "addr_test" := by decide
  have a2 : ascii "stake" ++ ascii "_test" = ascii "stake_test" := by decide
  refine ⟨b0, b6, b14, ?_, ?_, ?_⟩
  · intro e
    unfold Base.toBech32 at e
    rw [b0, show (Base.mk' nid pmt stk).header = header 0 nid from h0] at e
    cases nid
    · rw [if_pos (t0.2 rfl)] at e; exact text_spec "addr" _ s (by decide) e
    · rw [if_neg (by rw [t0]; simp)] at e; rw [hrp, a1]; exact text_spec "addr_test" _ s (by decide) e
  · intro e
    unfold enterpriseToBech32 Single.toBech32 at e
    rw [b6, show (enterprise nid pmt).header = header 6 nid from h6] at e
    cases nid
    · rw [if_pos (t6.2 rfl)] at e; exact text_spec "addr" _ s (by decide) e
    · rw [if_neg (by rw [t6]; simp)] at e; rw [hrp, a1]; exact text_spec "addr_test" _ s (by decide) e
  · intro e
    unfold rewardsToBech32 Single.toBech32 at e
    rw [b14, show (rewards nid stk).header = header 14 nid from h14] at e
    cases nid
    · rw [if_pos (t14.2 rfl)] at e; exact text_spec "stake" _ s (by decide) e
    · rw [if_neg (by rw [t14]; simp)] at e; rw [hrp, a2]; exact text_spec "stake_test" _ s (by decide) e

-- the text forms exist (C10)
example : ∃ s, (Base.mk' .testnet (List.replicate 28 1) (List.replicate 28 2)).toBech32 = .ok s := by
  obtain ⟨s, h, _⟩ := C10_base_roundtrip .testnet (List.replicate 28 1) (List.replicate 28 2) (by decide) (by decide)
  exact ⟨s, h⟩

end Cardano.Address
