import Verif.Spec.Deterministic
import Verif.Props.SetOrder
import Verif.Props.CborRfc
import Verif.Props.Wire

/-! # C109: the bytes of built transactions are deterministic CBOR -/

namespace Cardano.Cbor

open Cardano Cardano.Spec.Rfc8949 Cardano.Spec.SetOrder

theorem shortHead_enc (m n : Nat) (hm : m < 8) (hn : n < 2 ^ 64) : ShortHead m n (encHeader m n) := by
  have long : ∀ k, k ≤ 3 → n < 256 ^ (2 ^ k) → 24 ≤ n → (∀ j, j < k → 256 ^ 2 ^ j ≤ n) →
      ShortHead m n (UInt8.ofNat (m * 32 + (24 + k)) :: Util.packBE (2 ^ k) n) := by
    intro k hk hlt h24 hj
    refine .long hk ?_ (Util.packBE_length _ _) (by rw [Util.beNat_packBE, Nat.mod_eq_of_lt hlt]) h24 hj
    rw [hdrByte m (24 + k) hm (by omega)]; omega
  have e0 : (256 : Nat) ^ 2 ^ 0 = 2 ^ 8 := by decide
  have e1 : (256 : Nat) ^ 2 ^ 1 = 2 ^ 16 := by decide
  have e2 : (256 : Nat) ^ 2 ^ 2 = 2 ^ 32 := by decide
  unfold encHeader
  split
  · next h => exact .short h (by rw [hdrByte m n hm (by omega)]; omega)
  · split
    · exact long 0 (by omega) (by simpa using ‹n < 2 ^ 8›) (by omega) (by omega)
    · split
      · refine long 1 (by omega) (by simpa using ‹n < 2 ^ 16›) (by omega) fun j hj => ?_
        obtain rfl : j = 0 := by omega
        omega
      · split
        · refine long 2 (by omega) (by simpa using ‹n < 2 ^ 32›) (by omega) fun j hj => ?_
          obtain rfl | rfl : j = 0 ∨ j = 1 := by omega
          · omega
          · omega
        · refine long 3 (by omega) (by simpa using hn) (by omega) fun j hj => ?_
          obtain rfl | rfl | rfl : j = 0 ∨ j = 1 ∨ j = 2 := by omega
          · omega
          · omega
          · omega

theorem shortHead_unique {m n : Nat} {h h' : Bytes} (a : ShortHead m n h) (b : ShortHead m n h') : h = h' := by
  have bound : ∀ {arg : Bytes} {k : Nat}, arg.length = 2 ^ k → beNat arg = n → n < 256 ^ 2 ^ k := by
    intro arg k hl hb
    have := beNat_lt arg
    rw [hl, hb] at this; exact this
  cases a with
  | short h1 h2 =>
    cases b with
    | short g1 g2 =>
      have := UInt8.toNat_inj.mp (h2.trans g2.symm)
      rw [this]
    | long => omega
  | @long c arg k h1 h2 h3 h4 h5 h6 =>
    cases b with
    | short => omega
    | @long c' arg' k' g1 g2 g3 g4 g5 g6 =>
      have hk : k = k' := by
        have b1 := bound h3 h4
        have b2 := bound g3 g4
        rcases Nat.lt_trichotomy k k' with h | h | h
        · have := g6 k h; omega
        · exact h
        · have := h6 k' h; omega
      subst hk
      have e1 : c = c' := UInt8.toNat_inj.mp (h2.trans g2.symm)
      have e2 : arg = arg' := by
        exact beNat_inj (h3.trans g3.symm) (h4.trans g4.symm)
      rw [e1, e2]

theorem shortHead_head {m n : Nat} {h : Bytes} (a : ShortHead m n h) : Head m n h := by
  cases a with
  | short h1 h2 => exact .short h1 h2
  | long h1 h2 h3 h4 => exact .long h1 h2 h3 h4

/-- All maps inside have their keys in order. -/
inductive Tidy : Item → Prop
  | uint {n} : Tidy (.uint n)
  | bstr {b} : Tidy (.bstr b)
  | tstr {b} : Tidy (.tstr b)
  | array {l : List Item} : (∀ i ∈ l, Tidy i) → Tidy (.array l)
  | map {kvs : List (Item × Item)} : (∀ p ∈ kvs, Tidy p.1) → (∀ p ∈ kvs, Tidy p.2) →
      (kvs.map fun p => enc p.1).Pairwise Before → Tidy (.map (kvs.flatMap fun p => [p.1, p.2]))
  | tag {n i} : Tidy i → Tidy (.tag n i)
  | bool {b} : Tidy (.bool b)
  | null : Tidy .null

theorem encList_eq (l : List Item) : encList l = (l.map enc).flatten := by
  induction l with
  | nil => rfl
  | cons i l ih => rw [encList, ih]; rfl

theorem tidy_deterministic {i : Item} (h : Tidy i) : WF i → Deterministic i (enc i) := by
  induction h with
  | uint => intro hw; cases hw with | uint hn => exact .uint (shortHead_enc 0 _ (by omega) hn)
  | bstr => intro hw; cases hw with | bstr hn => exact .bstr (shortHead_enc 2 _ (by omega) hn)
  | tstr => intro hw; cases hw with | tstr hn => exact .tstr (shortHead_enc 3 _ (by omega) hn)
  | @array l _ ih =>
    intro hw
    cases hw with | array hn hl =>
    have := Deterministic.array (ps := l.map fun i => (i, enc i)) (h := encHeader 4 l.length)
      (by rw [List.length_map]; exact shortHead_enc 4 _ (by omega) hn) (by
        intro p hp
        obtain ⟨i, hi, rfl⟩ := List.mem_map.mp hp
        exact ih i hi (hl i hi))
    simp only [List.map_map] at this
    have e : List.map (Prod.fst ∘ fun i => (i, enc i)) l = l := by
      rw [show (Prod.fst ∘ fun i : Item => (i, enc i)) = id from rfl, List.map_id]
    have e2 : List.map (Prod.snd ∘ fun i => (i, enc i)) l = l.map enc := rfl
    rw [e, e2] at this
    rw [enc, encList_eq]
    exact this
  | @map kvs _ _ hk ih1 ih2 =>
    intro hw
    cases hw with | map hn he hl =>
    have hlen : (kvs.flatMap fun p => [p.1, p.2]).length = 2 * kvs.length := by
      simp [List.length_flatMap]; omega
    have := Deterministic.map (ps := kvs.map fun p => ((p.1, enc p.1), (p.2, enc p.2))) (h := encHeader 5 kvs.length)
      (by rw [List.length_map]; exact shortHead_enc 5 _ (by omega) (by omega)) (by
        intro p hp
        obtain ⟨q, hq, rfl⟩ := List.mem_map.mp hp
        exact ih1 q hq (hl _ (List.mem_flatMap.mpr ⟨q, hq, by simp⟩))) (by
        intro p hp
        obtain ⟨q, hq, rfl⟩ := List.mem_map.mp hp
        exact ih2 q hq (hl _ (List.mem_flatMap.mpr ⟨q, hq, by simp⟩))) (by
        rw [List.map_map]; exact hk)
    rw [List.flatMap_map, List.flatMap_map] at this
    have e : enc (.map (kvs.flatMap fun p => [p.1, p.2])) = encHeader 5 kvs.length ++ kvs.flatMap fun p => enc p.1 ++ enc p.2 := by
      rw [enc, hlen, Nat.mul_div_cancel_left _ (by omega), encList_eq]
      congr 1
      clear this hlen hl he hn ih1 ih2 hk
      induction kvs with
      | nil => rfl
      | cons p kvs ih => simp_all
    rw [e]
    exact this
  | tag _ ih =>
    intro hw
    cases hw with | tag hn hi =>
    rw [enc]
    exact .tag (shortHead_enc 6 _ (by omega) hn) (ih hi)
  | @bool b => intro _; cases b <;> simp only [enc]; exacts [.false, .true]
  | null => intro _; simp only [enc]; exact .null

theorem shortHead_eq {m n : Nat} {h : Bytes} (hm : m < 8) (a : ShortHead m n h) : h = encHeader m n := by
  refine shortHead_unique a (shortHead_enc m n hm ?_)
  cases a with
  | short h1 h2 => omega
  | @long c arg k h1 h2 h3 h4 h5 h6 =>
    have h7 := beNat_lt arg
    rw [h3, h4] at h7
    have h8 : (256 : Nat) ^ 2 ^ k ≤ 256 ^ 2 ^ 3 := Nat.pow_le_pow_right (by omega) (Nat.pow_le_pow_right (by omega) h1)
    have e : (256 : Nat) ^ 2 ^ 3 = 2 ^ 64 := by decide
    omega

theorem flatMap_enc : ∀ ps : List ((Item × Bytes) × (Item × Bytes)), (∀ p ∈ ps, p.1.2 = enc p.1.1) → (∀ p ∈ ps, p.2.2 = enc p.2.1) →
    (ps.flatMap fun p => p.1.2 ++ p.2.2) = encList (ps.flatMap fun p => [p.1.1, p.2.1])
  | [], _, _ => rfl
  | p :: ps, h1, h2 => by
    have e1 := h1 p (by simp)
    have e2 := h2 p (by simp)
    have e := flatMap_enc ps (fun q hq => h1 q (by simp [hq])) (fun q hq => h2 q (by simp [hq]))
    simp only [List.flatMap_cons, List.cons_append, List.nil_append, encList]
    rw [e, e1, e2, List.append_assoc]

theorem deterministic_enc {i : Item} {b : Bytes} (h : Deterministic i b) : b = enc i := by
  induction h with
  | uint h => rw [enc]; exact shortHead_eq (by omega) h
  | nint _ h => rw [enc]; exact shortHead_eq (by omega) h
  | bstr h => rw [enc, shortHead_eq (by omega) h]
  | tstr h => rw [enc, shortHead_eq (by omega) h]
  | @array ps h h1 _ ih =>
    rw [enc, encList_eq, shortHead_eq (by omega) h1, List.length_map, List.map_map]
    congr 2
    exact List.map_congr_left fun p hp => ih p hp
  | @map ps h h1 _ _ _ ih1 ih2 =>
    have hlen : (ps.flatMap fun p => [p.1.1, p.2.1]).length = 2 * ps.length := by
      simp [List.length_flatMap]; omega
    rw [enc, hlen, Nat.mul_div_cancel_left _ (by omega), shortHead_eq (by omega) h1]
    congr 1
    exact flatMap_enc ps ih1 ih2
  | tag h _ ih => rw [enc, shortHead_eq (by omega) h, ih]
  | false => simp only [enc]
  | true => simp only [enc]
  | null => simp only [enc]

/-- **C109** (what it means).  An item has at most one deterministic encoding. -/
theorem C109_unique {i : Item} {b b' : Bytes} (h : Deterministic i b) (h' : Deterministic i b') : b = b' :=
  (deterministic_enc h).trans (deterministic_enc h').symm

/-- **C109** (what it means).  A deterministic encoding is one of the encodings of the item. -/
theorem C109_encodes {i : Item} {b : Bytes} (h : Deterministic i b) : Encodes i b := by
  induction h with
  | uint h => exact .uint (shortHead_head h)
  | nint hn h => exact .nint hn (shortHead_head h)
  | bstr h => exact .bstr (shortHead_head h)
  | tstr h => exact .tstr (shortHead_head h)
  | array h _ ih => exact .array (shortHead_head h) ih
  | @map ps h h1 _ _ _ ih1 ih2 =>
    have := Encodes.map (ps := ps.flatMap fun p => [p.1, p.2]) (n := ps.length) (h := h)
      (by simp [List.length_flatMap]; omega) (shortHead_head h1) (by
        intro q hq
        obtain ⟨p, hp, hq⟩ := List.mem_flatMap.mp hq
        simp only [List.mem_cons, List.not_mem_nil, or_false] at hq
        rcases hq with rfl | rfl
        · exact ih1 p hp
        · exact ih2 p hp)
    have e1 : (ps.flatMap fun p => [p.1, p.2]).map (·.1) = ps.flatMap fun p => [p.1.1, p.2.1] := by
      rw [List.map_flatMap]; rfl
    have e2 : ((ps.flatMap fun p => [p.1, p.2]).map (·.2)).flatten = ps.flatMap fun p => p.1.2 ++ p.2.2 := by
      clear this h1 ih1 ih2 
      induction ps with
      | nil => rfl
      | cons p ps ih => simp_all
    rw [e1, e2] at this
    exact this
  | tag h _ ih => exact .tag (shortHead_head h) ih
  | false => exact .false
  | true => exact .true
  | null => exact .null

end Cardano.Cbor

namespace Cardano.Ledger

open Cardano.Cbor Cardano.Spec.Ledger Cardano.Spec.Rfc8949 Cardano.Spec.SetOrder

theorem before_append (p a b : Bytes) (h : Before a b) : Before (p ++ a) (p ++ b) := by
  induction p with
  | nil => exact h
  | cons x p ih => exact (before_cons x x _ _).mpr (Or.inr ⟨rfl, ih⟩)

theorem key_before {a b : Nat} (h : a < b) (hb : b < 24) : Before (enc (.uint a)) (enc (.uint b)) := by
  have ha : a < 24 := by omega
  simp only [enc, encHeader, ha, hb, if_true]
  refine (before_cons _ _ _ _).mpr (Or.inl ?_)
  rw [UInt8.toNat_ofNat', UInt8.toNat_ofNat']
  omega

/-- A map whose keys are small numbers in increasing order. -/
theorem tidy_keys (ps : List (Nat × Item)) (h1 : (ps.map (·.1)).Pairwise (· < ·)) (h2 : ∀ p ∈ ps, p.1 < 24)
    (h3 : ∀ p ∈ ps, Tidy p.2) : Tidy (.map (ps.flatMap fun kv => [.uint kv.1, kv.2])) := by
  have := Tidy.map (kvs := ps.map fun kv => (Item.uint kv.1, kv.2)) (by simp only [List.mem_map]; rintro _ ⟨q, _, rfl⟩; exact .uint)
    (by simp only [List.mem_map]; rintro _ ⟨q, hq, rfl⟩; exact h3 q hq) (by
      rw [List.map_map, List.pairwise_map]
      rw [List.pairwise_map] at h1
      exact List.Pairwise.imp_of_mem (fun ha hb h => key_before h (h2 _ hb)) h1)
  rwa [List.flatMap_map] at this

theorem tidy_withdrawals (ws : List (Bytes × Nat)) (hs : StrictSorted bytesLt (ws.map (·.1))) (h : ∀ w ∈ ws, w.1.length = 29) :
    Tidy (.map (withdrawalItems ws)) := by
  rw [withdrawalItems_flat]
  refine Tidy.map ?_ ?_ ?_
  · simp only [List.mem_map]; rintro _ ⟨q, _, rfl⟩; exact .bstr
  · simp only [List.mem_map]; rintro _ ⟨q, _, rfl⟩; exact .uint
  · rw [List.map_map, List.pairwise_map]
    have := sorted_before hs
    rw [List.pairwise_map] at this
    refine List.Pairwise.imp_of_mem (fun {a b} ha hb hlt => ?_) this
    simp only [Function.comp, enc]
    rw [h a ha, h b hb]
    exact before_append _ _ _ hlt

theorem tidy_array {α} (f : α → Item) (l : List α) (h : ∀ a ∈ l, Tidy (f a)) : Tidy (.array (l.map f)) :=
  .array fun i hi => by obtain ⟨a, ha, rfl⟩ := List.mem_map.mp hi; exact h a ha

theorem tidy_mapOut {α} (f : α → Out (List Item)) : ∀ (l : List α) (r : List (List Item)), mapOut f l = .ok r →
    (∀ a ∈ l, ∀ x, f a = .ok x → ∀ i ∈ x, Tidy i) → Tidy (.array (r.map .array)) := by
  intro l r h hf
  refine tidy_array _ _ fun x hx => .array ?_
  induction l generalizing r with
  | nil => rw [mapOut] at h; simp only [Out.ok.injEq] at h; subst h; simp at hx
  | cons a l ih =>
    rw [mapOut] at h
    obtain ⟨b, hb, h⟩ := Out.bind_eq_ok.mp h
    obtain ⟨bs, hbs, h⟩ := Out.bind_eq_ok.mp h
    simp only [Out.ok.injEq] at h; subst h
    rcases List.mem_cons.mp hx with rfl | hx
    · exact hf a (by simp) _ hb
    · exact ih bs hbs (fun a ha => hf a (by simp [ha])) hx

theorem tidy_port (p : Option Nat) : Tidy (portItem p) := by cases p <;> first | exact .null | exact .uint

theorem tidy_relay (r : Relay) (l : List Item) (h : r.ser = .ok l) : ∀ i ∈ l, Tidy i := by
  cases r with
  | empty => simp only [Relay.ser, Out.ok.injEq] at h; subst h; simp
  | name dns port =>
    simp only [Relay.ser, Out.ok.injEq] at h; subst h
    simp only [List.mem_cons, List.not_mem_nil, or_false]
    rintro i (rfl | rfl | rfl)
    · exact .uint
    · exact tidy_port _
    · exact .tstr
  | multi dns =>
    simp only [Relay.ser, Out.ok.injEq] at h; subst h
    simp only [List.mem_cons, List.not_mem_nil, or_false]
    rintro i (rfl | rfl)
    · exact .uint
    · exact .tstr
  | addr v4 v6 port =>
    cases v4 with
    | some v4 =>
      simp only [Relay.ser, Out.ok.injEq] at h; subst h
      simp only [List.mem_cons, List.not_mem_nil, or_false]
      rintro i (rfl | rfl | rfl | rfl)
      · exact .uint
      · exact tidy_port _
      · exact .bstr
      · exact .null
    | none =>
      cases v6 with
      | some v6 => simp [Relay.ser] at h
      | none =>
        simp only [Relay.ser, Out.ok.injEq] at h; subst h
        simp only [List.mem_cons, List.not_mem_nil, or_false]
        rintro i (rfl | rfl)
        · exact .uint
        · exact tidy_port _

theorem tidy_cred (c : StakeCredential) : Tidy (.array c.ser) := by
  refine .array ?_
  simp only [StakeCredential.ser, List.mem_cons, List.not_mem_nil, or_false]
  rintro i (rfl | rfl)
  · exact .uint
  · exact .bstr

/-- A certificate that holds no map. -/
def NoRewards : Certificate → Prop
  | .mir _ => False
  | _ => True

theorem tidy_cert (c : Certificate) (hc : NoRewards c) (l : List Item) (h : c.ser = .ok l) : ∀ i ∈ l, Tidy i := by
  cases c with
  | mir m => exact absurd hc id
  | poolReg p =>
    obtain ⟨ps, hps, e⟩ := Out.bind_eq_ok.mp (show (p.ser >>= fun ps => .ok (.uint 3 :: ps)) = .ok l from h)
    simp only [Out.ok.injEq] at e; subst e
    unfold PoolParams.ser at hps
    obtain ⟨rs, hrs, e⟩ := Out.bind_eq_ok.mp hps
    simp only [Out.ok.injEq] at e; subst e
    intro i hi
    simp only [List.mem_cons, List.mem_append, List.not_mem_nil, or_false] at hi
    rcases hi with rfl | (((rfl | rfl | rfl | rfl | rfl | rfl) | hi) | hi) | hi
    · exact .uint
    · exact .bstr
    · exact .bstr
    · exact .uint
    · exact .uint
    · refine .tag (.array ?_)
      simp only [List.mem_cons, List.not_mem_nil, or_false]
      rintro i (rfl | rfl) <;> exact .uint
    · exact .bstr
    · unfold ownersItem at hi
      split at hi
      · simp at hi
      · simp only [List.mem_singleton] at hi; subst hi
        exact tidy_array _ _ fun _ _ => .bstr
    · unfold relaysItem at hrs
      split at hrs
      · simp only [Out.ok.injEq] at hrs; subst hrs; simp at hi
      · obtain ⟨r, hr, e⟩ := Out.bind_eq_ok.mp hrs
        simp only [Out.ok.injEq] at e; subst e
        simp only [List.mem_singleton] at hi; subst hi
        exact tidy_mapOut _ _ _ hr fun a _ x hx => tidy_relay a x hx
    · cases hm : p.metadata with
      | none => rw [hm] at hi; simp [metadataItem] at hi
      | some m =>
        rw [hm] at hi
        simp only [metadataItem, List.mem_singleton] at hi; subst hi
        refine .array ?_
        simp only [PoolMetadata.ser, List.mem_cons, List.not_mem_nil, or_false]
        rintro i (rfl | rfl)
        · exact .tstr
        · exact .bstr
  | _ =>
    simp only [Certificate.ser, Out.ok.injEq] at h; subst h
    simp only [List.mem_cons, List.not_mem_nil, or_false]
    intro i hi
    rcases hi with rfl | rfl | rfl | rfl <;> first | exact .uint | exact .bstr | exact tidy_cred _

theorem tidy_vkeys (ws : List VkeyWitness) : Tidy (.map (vkeysEntry ws)) := by
  unfold vkeysEntry
  split
  · exact Tidy.map (kvs := []) (by simp) (by simp) (by simp)
  · refine tidy_keys [(0, .array (ws.map fun w => .array w.ser))] (by simp) (by simp) ?_
    simp only [List.mem_singleton]
    rintro p rfl
    refine tidy_array _ _ fun w _ => .array ?_
    simp only [VkeyWitness.ser, List.mem_cons, List.not_mem_nil, or_false]
    rintro i (rfl | rfl) <;> exact .bstr

theorem tidy_inputs (l : List TxIn) : Tidy (.array (l.map fun i => .array i.ser)) := by
  refine tidy_array _ _ fun w _ => .array ?_
  simp only [TxIn.ser, List.mem_cons, List.not_mem_nil, or_false]
  rintro i (rfl | rfl)
  · exact .bstr
  · exact .uint

theorem tidy_body (b : TxBody) (hs : StrictSorted bytesLt (b.withdrawals.map (·.1))) (hw : ∀ w ∈ b.withdrawals, w.1.length = 29)
    (hc : ∀ c ∈ b.certificates, NoRewards c) (l : List Item) (hl : b.ser = .ok l) : Tidy (.map l) := by
  obtain ⟨cs, hcs, rfl⟩ := body_ser_ok b l hl
  rw [← bodyPairs_flat]
  refine tidy_keys _ ?_ ?_ ?_
  · unfold bodyPairs
    by_cases h1 : b.certificates = [] <;> by_cases h2 : b.withdrawals = [] <;> cases h3 : b.metadataHash <;>
      simp [h1, h2]
  · unfold bodyPairs
    by_cases h1 : b.certificates = [] <;> by_cases h2 : b.withdrawals = [] <;> cases h3 : b.metadataHash <;>
      simp [h1, h2]
  · intro p hp
    simp only [bodyPairs, List.mem_append, List.mem_cons, List.not_mem_nil, or_false] at hp
    rcases hp with (((rfl | rfl | rfl | rfl) | hp) | hp) | hp
    · exact tidy_inputs _
    · refine tidy_array _ _ fun w _ => .array ?_
      simp only [TxOut.ser, List.mem_cons, List.not_mem_nil, or_false]
      rintro i (rfl | rfl)
      · exact .bstr
      · exact .uint
    · exact .uint
    · exact .uint
    · split at hp
      · simp at hp
      · simp only [List.mem_singleton] at hp; subst hp
        exact tidy_mapOut _ _ _ hcs fun c hc' x hx => tidy_cert c (hc c hc') x hx
    · split at hp
      · simp at hp
      · simp only [List.mem_singleton] at hp; subst hp
        exact tidy_withdrawals _ hs hw
    · cases hm : b.metadataHash with
      | none => rw [hm] at hp; simp at hp
      | some h => rw [hm] at hp; simp at hp; subst hp; exact .bstr

theorem tidy_babbage_body (b : Babbage.TxBody) (hs : StrictSorted bytesLt (b.withdrawals.map (·.1)))
    (hw : ∀ w ∈ b.withdrawals, w.1.length = 29) : Tidy (.map b.ser) := by
  rw [← Babbage.pairs_flat]
  refine tidy_keys _ ?_ ?_ ?_
  · unfold Babbage.pairs
    by_cases h2 : b.withdrawals = [] <;> cases h3 : b.ttl <;> simp [h2]
  · unfold Babbage.pairs
    by_cases h2 : b.withdrawals = [] <;> cases h3 : b.ttl <;> simp [h2]
  · intro p hp
    simp only [Babbage.pairs, List.mem_append, List.mem_cons, List.not_mem_nil, or_false] at hp
    rcases hp with ((rfl | rfl | rfl) | hp) | hp
    · exact tidy_inputs _
    · refine tidy_array _ _ fun o _ => ?_
      cases o with
      | pre o =>
        refine .array ?_
        intro i hi
        simp only [List.mem_append, List.mem_cons, List.not_mem_nil, or_false] at hi
        rcases hi with (rfl | rfl) | hi
        · exact .bstr
        · exact .uint
        · cases hd : o.datumHash with
          | none => rw [hd] at hi; simp [Babbage.datumItem] at hi
          | some d => rw [hd] at hi; simp [Babbage.datumItem] at hi; subst hi; exact .bstr
      | post o =>
        refine tidy_keys [(0, .bstr o.address), (1, .uint o.amount)] (by simp) (by simp) ?_
        simp only [List.mem_cons, List.not_mem_nil, or_false]
        rintro p (rfl | rfl)
        · exact .bstr
        · exact .uint
    · exact .uint
    · cases hm : b.ttl with
      | none => rw [hm] at hp; simp at hp
      | some h => rw [hm] at hp; simp at hp; subst hp; exact .uint
    · split at hp
      · simp at hp
      · simp only [List.mem_singleton] at hp; subst hp
        exact tidy_withdrawals _ hs hw

end Cardano.Ledger

namespace Cardano

open Cardano.Cbor Cardano.Ledger Cardano.Spec.Ledger Cardano.Spec.Rfc8949

theorem withdrawals_29 (ops : List TxBuilder.Op) (ha : ∀ op ∈ ops, Spec.Wire.ArgsWF op) :
    ∀ w ∈ Spec.TxBuilder.withdrawalsOf ops, w.1.length = 29 := by
  induction ops with
  | nil => simp [Spec.TxBuilder.withdrawalsOf]
  | cons op ops ih =>
    have ih := ih fun o ho => ha o (by simp [ho])
    have h := ha op (by simp)
    cases op with
    | addWithdrawal a n =>
      simp only [Spec.TxBuilder.withdrawalsOf, List.mem_cons]
      rintro w (rfl | hw)
      · simp only [Spec.Wire.ArgsWF] at h
        simp [Address.Single.toBytes, h.1]
      · exact ih w hw
    | _ => exact ih

theorem babbage_withdrawals_29 (ops : List BabbageBuilder.Op) (ha : ∀ op ∈ ops, Spec.BabbageBuilder.ArgsWF op) :
    ∀ w ∈ Spec.BabbageBuilder.withdrawalsOf ops, w.1.length = 29 := by
  induction ops with
  | nil => simp [Spec.BabbageBuilder.withdrawalsOf]
  | cons op ops ih =>
    have ih := ih fun o ho => ha o (by simp [ho])
    have h := ha op (by simp)
    cases op with
    | addWithdrawal a n =>
      simp only [Spec.BabbageBuilder.withdrawalsOf, List.mem_cons]
      rintro w (rfl | hw)
      · simp only [Spec.BabbageBuilder.ArgsWF] at h
        simp [Address.Single.toBytes, h.1]
      · exact ih w hw
    | _ => exact ih

theorem certsOf_noRewards (ops : List TxBuilder.Op) : ∀ c ∈ (Spec.TxBuilder.certsOf ops).map (·.1), NoRewards c := by
  induction ops with
  | nil => simp [Spec.TxBuilder.certsOf]
  | cons op ops ih =>
    cases op
    all_goals
      simp only [Spec.TxBuilder.certsOf, List.map_cons, List.mem_cons]
      first
      | exact ih
      | (rintro c (rfl | hc)
         · exact trivial
         · exact ih c hc)

/-- **C109** (Shelley builder).  After any calls on a new builder, with arguments of their C++ sizes, the bytes it serializes are a deterministically encoded
CBOR item: shortest heads, keys in order, nothing before or after it. -/
theorem C109_shelley (E : TxBuilder.Env) (k : Nat) (ops : List TxBuilder.Op) (b : TxBuilder.Builder)
    (h : TxBuilder.run E k {} ops = some b) (ha : ∀ op ∈ ops, Spec.Wire.ArgsWF op) (hn : ops.length < 2 ^ 62)
    (bytes : Bytes) (hb : b.tx.serialize = .ok bytes) : ∃ i, Deterministic i bytes := by
  have hm := TxBuilder.made_run E k ops 0 {} b ha (TxBuilder.made_new 0) h
  have hr : TxRep b.tx := hm.rep (by omega)
  have hp : Spec.Wire.Plain b.tx := TxBuilder.plain_run E k ops {} b ⟨rfl, rfl, rfl, rfl, rfl⟩ h
  obtain ⟨g1, g2, g3, -⟩ := TxBuilder.run_facts E k ops {} b h
  have s2 := TxBuilder.foldl_mapAssign (Spec.TxBuilder.withdrawalsOf ops) [] List.Pairwise.nil
  obtain ⟨l, hl, e⟩ := Out.bind_eq_ok.mp (show (b.tx.ser >>= fun l => .ok (encArray l)) = .ok bytes from hb)
  simp only [Out.ok.injEq] at e; subst e
  refine ⟨.array l, tidy_deterministic (.array ?_) (tx_wf b.tx hr l hl)⟩
  unfold Tx.ser at hl
  obtain ⟨bb, hbb, e⟩ := Out.bind_eq_ok.mp hl
  simp only [Out.ok.injEq] at e; subst e
  rw [hp.noMetadata]
  intro i hi
  simp only [List.mem_append, List.mem_cons, List.not_mem_nil, or_false, Bool.false_eq_true, if_false] at hi
  rcases hi with (rfl | rfl) | rfl
  · refine tidy_body _ ?_ ?_ ?_ bb hbb
    · exact hm.withdrawals.2.1
    · intro w hw
      rw [g2] at hw
      have := (s2.2 w).mp hw
      simp only [List.not_mem_nil, and_false, or_false] at this
      exact withdrawals_29 ops ha (w.1, w.2) (TxBuilder.lastFor_mem _ _ _ this)
    · rw [g3]
      simpa using certsOf_noRewards ops
  · have : b.tx.wits.ser = vkeysEntry b.tx.wits.vkeys := by
      unfold WitnessSet.ser
      rw [hp.noScripts, hp.noBootstrap]
      simp [multisigEntry, bootstrapEntry]
    rw [this]
    exact tidy_vkeys _
  · exact .null

/-- **C109** (Babbage builder). -/
theorem C109_babbage (E : TxBuilder.Env) (k : Nat) (ops : List BabbageBuilder.Op) (b : BabbageBuilder.Builder)
    (h : BabbageBuilder.run E k {} ops = some b) (ha : ∀ op ∈ ops, Spec.BabbageBuilder.ArgsWF op) (hn : ops.length < 2 ^ 60) :
    ∃ i, Deterministic i (BabbageBuilder.serialize b) := by
  obtain ⟨-, -, ⟨c4, c5⟩, -⟩ := BabbageBuilder.C78_body E k ops b h
  refine ⟨.array b.tx.ser, tidy_deterministic (.array ?_) (babbage_wf E k ops b h ha hn)⟩
  intro i hi
  simp only [Babbage.Tx.ser, List.mem_cons, List.not_mem_nil, or_false] at hi
  rcases hi with rfl | rfl | rfl | rfl
  · refine tidy_babbage_body _ c4 fun w hw => ?_
    exact babbage_withdrawals_29 ops ha (w.1, w.2) (TxBuilder.lastFor_mem _ _ _ ((c5 w.1 w.2).mp hw))
  · exact tidy_vkeys _
  · exact .bool
  · exact .null

/-! ## Concrete cases -/

/-- The number 5 written in two bytes is CBOR, but not deterministic. -/
example : Encodes (.uint 5) [0x18, 5] ∧ ¬ Deterministic (.uint 5) [0x18, 5] :=
  ⟨.uint (.long (k := 0) (c := 0x18) (arg := [5]) (by omega) rfl rfl rfl),
    fun h => absurd (Cbor.deterministic_enc h) (by decide)⟩

/-- A payment with two inputs added in the wrong order, a withdrawal and a pool retirement. -/
example (E : TxBuilder.Env) : ∃ b bytes i, TxBuilder.run E 0 {} [.addInput ⟨List.replicate 32 0x80, 0, 5⟩,
      .addInput ⟨List.replicate 32 0x7F, 256, 5⟩, .addWithdrawal ⟨0xE1, List.replicate 28 9⟩ 300,
      .poolRetirement (List.replicate 28 4) 77, .setTtl 65536] = some b ∧ b.tx.serialize = .ok bytes ∧
      Deterministic i bytes := by
  have h := C109_shelley E 0 [.addInput ⟨List.replicate 32 0x80, 0, 5⟩, .addInput ⟨List.replicate 32 0x7F, 256, 5⟩,
    .addWithdrawal ⟨0xE1, List.replicate 28 9⟩ 300, .poolRetirement (List.replicate 28 4) 77, .setTtl 65536] _ rfl
    (by simp [Spec.Wire.ArgsWF]) (by simp) _ rfl
  obtain ⟨i, hi⟩ := h
  exact ⟨_, _, i, rfl, rfl, hi⟩

/-- The same for Babbage. -/
example (E : TxBuilder.Env) : ∃ b i, BabbageBuilder.run E 0 {} [.addInput (List.replicate 32 0x80) 0,
      .addInput (List.replicate 32 0x7F) 9, .addWithdrawal ⟨0xE1, List.replicate 28 5⟩ 7,
      .addOutputEnterprise ⟨0x61, List.replicate 28 5⟩ 7 false] = some b ∧ Deterministic i (BabbageBuilder.serialize b) := by
  have h := C109_babbage E 0 [.addInput (List.replicate 32 0x80) 0, .addInput (List.replicate 32 0x7F) 9,
    .addWithdrawal ⟨0xE1, List.replicate 28 5⟩ 7, .addOutputEnterprise ⟨0x61, List.replicate 28 5⟩ 7 false] _ rfl
    (by simp [Spec.BabbageBuilder.ArgsWF]) (by simp)
  obtain ⟨i, hi⟩ := h
  exact ⟨_, i, rfl, hi⟩

end Cardano
