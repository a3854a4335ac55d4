import Verif.Model.Kes
import Verif.Spec.Kes
import Verif.Lemmas.Util

namespace Cardano.Kes
open KesSpec

variable (C : SigHash)

theorem treeKey_length (d : Nat) (s : Bytes) : (treeKey C d s).length = 32 := by
  cases d <;> simp [treeKey, C.hash_length, C.pub_length]

/-- The key buffer (without the period) in period `t`. -/
def layout : (d : Nat) → (seed : Bytes) → (t : Nat) → Bytes
  | 0, seed, _ => seed
  | d + 1, seed, t =>
    if t < 2 ^ d then
      layout d (splitLeft C seed) t ++ (splitRight C seed ++ (treeKey C d (splitLeft C seed) ++ treeKey C d (splitRight C seed)))
    else
      layout d (splitRight C seed) (t - 2 ^ d) ++ (zeros32 ++ (treeKey C d (splitLeft C seed) ++ treeKey C d (splitRight C seed)))

theorem splitLeft_length (s) : (splitLeft C s).length = 32 := C.hash_length _
theorem splitRight_length (s) : (splitRight C s).length = 32 := C.hash_length _

theorem layout_length : ∀ d s t, s.length = 32 → (layout C d s t).length = keySize d := by
  intro d
  induction d with
  | zero => intro s t h; simp [layout, keySize, h]
  | succ d ih =>
    intro s t _
    unfold layout
    split
    · simp only [List.length_append, ih _ _ (splitLeft_length C s), treeKey_length, splitRight_length, keySize]
      omega
    · simp only [List.length_append, ih _ _ (splitRight_length C s), treeKey_length, zeros32, List.length_replicate, keySize]
      omega

theorem writeAt_zero {buf data : Bytes} (h : data.length ≤ buf.length) :
    writeAt buf 0 data = .ok (data ++ buf.drop data.length) := by
  simp [writeAt, h]

/-- writing into the middle of a concatenation -/
theorem writeAt_mid {a b c data : Bytes} (h : data.length = b.length) (off : Nat) (ho : off = a.length) :
    writeAt (a ++ (b ++ c)) off data = .ok (a ++ (data ++ c)) := by
  subst ho
  unfold writeAt
  rw [if_pos (by simp; omega)]
  simp only [List.take_left, List.append_assoc]
  congr 3
  rw [h, ← List.length_append, ← List.append_assoc, List.drop_left]

theorem first_append {a b : Bytes} (n : Nat) (h : n = a.length) : first (a ++ b) n = .ok a := by
  subst h; simp [first]

theorem slice_mid {a b c : Bytes} (off n : Nat) (ho : off = a.length) (hn : n = b.length) :
    slice (a ++ (b ++ c)) off n = .ok b := by
  subst ho hn
  unfold slice
  rw [if_pos (by simp)]
  simp

theorem packBE4_length (v) : (Util.packBE 4 v).length = 4 := Util.packBE_length 4 v

theorem fromBytes_full (d : Nat) (b p : Bytes) (h : b.length = keySize d) (hp : p.length = 4) :
    fromBytes d (b ++ p) = .ok ⟨b ++ p, 0⟩ := by
  unfold fromBytes
  rw [if_neg (by simp [h, hp]), if_neg (by simp [h, hp])]

theorem splitBuf (buf : Bytes) (n m : Nat) (h : buf.length = n + m) :
    ∃ a b, buf = a ++ b ∧ a.length = n ∧ b.length = m :=
  ⟨buf.take n, buf.drop n, (List.take_append_drop n buf).symm, by simp [h], by simp [h]⟩

/-- What `keygen_buffer` does with an explicit seed and with the trailing seed. -/
def KbSpec (d : Nat) : Prop :=
  (∀ buf seed : Bytes, buf.length = keySize d → seed.length = 32 →
    keygenBuffer C d buf (some seed) = .ok (layout C d seed 0, some zeros32, treeKey C d seed)) ∧
  (∀ buf seed : Bytes, buf.length = keySize d → seed.length = 32 →
    keygenBuffer C d (buf ++ seed) none = .ok (layout C d seed 0 ++ zeros32, none, treeKey C d seed))

theorem keygenWith_ok (d : Nat) (h : KbSpec C d) (kbuf seed : Bytes) (hk : kbuf.length = keySize d + 4)
    (hs : seed.length = 32) :
    keygenWith C (keygenBuffer C d) d kbuf seed =
      .ok (⟨layout C d seed 0 ++ Util.packBE 4 0, 0⟩, treeKey C d seed, zeros32) := by
  obtain ⟨a, b, rfl, ha, hb⟩ := splitBuf kbuf (keySize d) 4 hk
  unfold keygenWith
  rw [if_neg (by simp [ha, hb]), if_neg (by simp [hs])]
  have hb' : (Util.packBE 4 0).length = b.length := by rw [packBE4_length, hb]
  cases d with
  | zero =>
    have h32 : seed.length = a.length := by rw [hs, ha]; rfl
    have e1 : writeAt (a ++ b) 0 seed = .ok (seed ++ b) := by
      have := writeAt_mid (a := []) (b := a) (c := b) (data := seed) h32 0 rfl
      simpa using this
    have e2 : writeAt (seed ++ b) (keySize 0) (Util.packBE 4 0) = .ok (seed ++ Util.packBE 4 0) := by
      have := writeAt_mid (a := seed) (b := b) (c := []) hb' (keySize 0) (by rw [hs]; rfl)
      simpa using this
    simp only [e1, e2, Out.ok_bind]
    rw [fromBytes_full 0 seed _ (by rw [hs]; rfl) (packBE4_length 0)]
    rfl
  | succ d =>
    have e0 := h.1 a seed ha hs
    have hl := layout_length C (d + 1) seed 0 hs
    have e1 : writeAt (a ++ b) 0 (layout C (d + 1) seed 0) = .ok (layout C (d + 1) seed 0 ++ b) := by
      have := writeAt_mid (a := []) (b := a) (c := b) (data := layout C (d + 1) seed 0) (by rw [hl, ha]) 0 rfl
      simpa using this
    have e2 : writeAt (layout C (d + 1) seed 0 ++ b) (keySize (d + 1)) (Util.packBE 4 0) =
        .ok (layout C (d + 1) seed 0 ++ Util.packBE 4 0) := by
      have := writeAt_mid (a := layout C (d + 1) seed 0) (b := b) (c := []) hb' (keySize (d + 1)) hl.symm
      simpa using this
    simp only [first_append _ ha.symm, Out.ok_bind, e0, e1, e2]
    rw [fromBytes_full (d + 1) _ _ hl (packBE4_length 0)]
    rfl

theorem keySize_succ (d : Nat) : keySize (d + 1) = keySize d + 96 := by unfold keySize; omega

theorem kbSpec : ∀ d, KbSpec C d := by
  intro d
  induction d with
  | zero =>
    constructor
    · intro buf seed hb hs
      have hb : buf.length = 32 := hb
      unfold keygenBuffer
      rw [if_neg (by simp [hs, keySize]), writeAt_zero (by omega)]
      have : buf.drop seed.length = [] := List.drop_of_length_le (by omega)
      simp [this, layout, treeKey]
    · intro buf seed hb hs
      have hb : buf.length = 32 := hb
      unfold keygenBuffer
      rw [if_neg (by simp [hs, hb, keySize])]
      have e0 : (buf ++ seed).drop (keySize 0) = seed := List.drop_left' hb
      have e1 : writeAt (buf ++ seed) (keySize 0) zeros32 = .ok (buf ++ zeros32) := by
        have := writeAt_mid (a := buf) (b := seed) (c := []) (data := zeros32) (by simp [zeros32, hs]) (keySize 0) hb.symm
        simpa using this
      have e2 : writeAt (buf ++ zeros32) 0 seed = .ok (seed ++ zeros32) := by
        have := writeAt_mid (a := []) (b := buf) (c := zeros32) (data := seed) (by omega) 0 rfl
        simpa using this
      simp [e0, e1, e2, layout, treeKey]
  | succ d ih =>
    have main : ∀ (a : Bytes) (x y z tail seed : Bytes), a.length = keySize d → x.length = 32 → y.length = 32 → z.length = 32 →
        (do
          let buf ← writeAt (a ++ (x ++ (y ++ (z ++ tail)))) (keySize d) (splitRight C seed)
          let sub ← first buf (keySize d)
          let (sub', _, pk0) ← keygenBuffer C d sub (some (splitLeft C seed))
          let buf ← writeAt buf 0 sub'
          let (_, pk1, _) ← keygenWith C (keygenBuffer C d) d (List.replicate (keySize d + 4) 0) (splitRight C seed)
          let buf ← writeAt buf (keySize d + 32) pk0
          let buf ← writeAt buf (keySize d + 32 + 32) pk1
          return (buf, hashPair C pk0 pk1) : Out (Bytes × Bytes)) =
        .ok (layout C (d + 1) seed 0 ++ tail, treeKey C (d + 1) seed) := by
      intro a x y z tail seed ha hx hy hz
      have hL := splitLeft_length C seed
      have hR := splitRight_length C seed
      have hl := layout_length C d (splitLeft C seed) 0 hL
      rw [writeAt_mid (by rw [hR, hx]) _ ha.symm]
      simp only [Out.ok_bind]
      rw [first_append _ ha.symm]
      simp only [Out.ok_bind]
      rw [ih.1 a _ ha hL]
      simp only [Out.ok_bind]
      have e1 := writeAt_mid (a := []) (b := a) (c := splitRight C seed ++ (y ++ (z ++ tail)))
        (data := layout C d (splitLeft C seed) 0) (by rw [hl, ha]) 0 rfl
      simp only [List.nil_append] at e1
      rw [e1]
      simp only [Out.ok_bind]
      rw [keygenWith_ok C d ih _ _ (by simp) hR]
      simp only [Out.ok_bind]
      have e2 := writeAt_mid (a := layout C d (splitLeft C seed) 0 ++ splitRight C seed) (b := y) (c := z ++ tail)
        (data := treeKey C d (splitLeft C seed)) (by rw [treeKey_length, hy]) (keySize d + 32) (by simp [hl, hR])
      simp only [List.append_assoc] at e2
      rw [e2]
      simp only [Out.ok_bind]
      have e3 := writeAt_mid (a := layout C d (splitLeft C seed) 0 ++ splitRight C seed ++ treeKey C d (splitLeft C seed)) (b := z) (c := tail)
        (data := treeKey C d (splitRight C seed)) (by rw [treeKey_length, hz]) (keySize d + 32 + 32) (by simp [hl, hR, treeKey_length])
      simp only [List.append_assoc] at e3
      rw [e3]
      simp only [Out.ok_bind, Out.pure_eq]
      congr 2
      rw [layout, if_pos (Nat.pow_pos (by omega))]
      simp only [List.append_assoc]
    have fin : ∀ (buf tail seed : Bytes) (o : Option Bytes), buf.length = keySize (d + 1) →
        (do
          let buf ← writeAt (buf ++ tail) (keySize d) (splitRight C seed)
          let sub ← first buf (keySize d)
          let (sub', _, pk0) ← keygenBuffer C d sub (some (splitLeft C seed))
          let buf ← writeAt buf 0 sub'
          let (_, pk1, _) ← keygenWith C (keygenBuffer C d) d (List.replicate (keySize d + 4) 0) (splitRight C seed)
          let buf ← writeAt buf (keySize d + 32) pk0
          let buf ← writeAt buf (keySize d + 32 + 32) pk1
          return (buf, o, hashPair C pk0 pk1) : Out (Bytes × Option Bytes × Bytes)) =
        .ok (layout C (d + 1) seed 0 ++ tail, o, treeKey C (d + 1) seed) := by
      intro buf tail seed o hb
      obtain ⟨a, r, rfl, ha, hr⟩ := splitBuf buf (keySize d) 96 (by rw [hb, keySize_succ])
      obtain ⟨x, r, rfl, hx, hr⟩ := splitBuf r 32 64 hr
      obtain ⟨y, z, rfl, hy, hz⟩ := splitBuf r 32 32 hr
      have h := main a x y z tail seed ha hx hy hz
      simp only [List.append_assoc]
      rw [Out.bind_eq_ok] at h ⊢
      obtain ⟨b1, h1, h⟩ := h
      refine ⟨b1, h1, ?_⟩
      rw [Out.bind_eq_ok] at h ⊢
      obtain ⟨b2, h2, h⟩ := h
      refine ⟨b2, h2, ?_⟩
      rw [Out.bind_eq_ok] at h ⊢
      obtain ⟨⟨b3, b3', b3''⟩, h3, h⟩ := h
      refine ⟨(b3, b3', b3''), h3, ?_⟩
      simp only at h ⊢
      rw [Out.bind_eq_ok] at h ⊢
      obtain ⟨b4, h4, h⟩ := h
      refine ⟨b4, h4, ?_⟩
      rw [Out.bind_eq_ok] at h ⊢
      obtain ⟨⟨b5, b5', b5''⟩, h5, h⟩ := h
      refine ⟨(b5, b5', b5''), h5, ?_⟩
      simp only at h ⊢
      rw [Out.bind_eq_ok] at h ⊢
      obtain ⟨b6, h6, h⟩ := h
      refine ⟨b6, h6, ?_⟩
      rw [Out.bind_eq_ok] at h ⊢
      obtain ⟨b7, h7, h⟩ := h
      refine ⟨b7, h7, ?_⟩
      simp only [Out.pure_eq, Out.ok.injEq, Prod.mk.injEq] at h ⊢
      simp [h]
    constructor
    · intro buf seed hb hs
      have := fin buf [] seed (some zeros32) hb
      rw [List.append_nil, List.append_nil] at this
      rw [keygenBuffer]
      simp only [hb, hs, ne_eq, not_true_eq_false, if_false, Out.ok_bind]
      exact this
    · intro buf seed hb hs
      have := fin buf zeros32 seed none hb
      rw [keygenBuffer]
      have hlen : (buf ++ seed).length = keySize (d + 1) + 32 := by simp [hb, hs]
      have e1 : slice (buf ++ seed) (keySize (d + 1)) 32 = .ok seed := by
        have := slice_mid (a := buf) (b := seed) (c := []) (keySize (d + 1)) 32 hb.symm hs.symm
        simpa using this
      have e2 : writeAt (buf ++ seed) (keySize (d + 1)) zeros32 = .ok (buf ++ zeros32) := by
        have := writeAt_mid (a := buf) (b := seed) (c := []) (data := zeros32) (by simp [zeros32, hs]) (keySize (d + 1)) hb.symm
        simpa using this
      simp only [hlen, ne_eq, not_true_eq_false, if_false, e1, e2, Out.ok_bind, Out.pure_eq]
      exact this

theorem keygen_ok (d : Nat) (seed : Bytes) (hs : seed.length = 32) :
    keygen C d seed = .ok (⟨layout C d seed 0 ++ Util.packBE 4 0, 0⟩, treeKey C d seed, zeros32) :=
  keygenWith_ok C d (kbSpec C d) _ _ (by simp) hs

theorem layout_next (d : Nat) (seed : Bytes) (t : Nat) : layout C (d + 1) seed t =
    (if t < 2 ^ d then layout C d (splitLeft C seed) t ++ splitRight C seed
     else layout C d (splitRight C seed) (t - 2 ^ d) ++ zeros32) ++
      (treeKey C d (splitLeft C seed) ++ treeKey C d (splitRight C seed)) := by
  rw [layout]; split <;> simp

theorem updateBuffer_ok : ∀ (d : Nat) (seed : Bytes) (t : Nat) (rest : Bytes), d < 32 → seed.length = 32 → t + 1 < 2 ^ d →
    updateBuffer C d (layout C d seed t ++ rest) t = (layout C d seed (t + 1) ++ rest, .ok ()) := by
  intro d
  induction d with
  | zero => intro seed t rest _ _ h; simp at h
  | succ d ih =>
    intro seed t rest hd hs ht
    have h32 : 2 ^ (d + 1) ≤ 2 ^ 32 := Nat.pow_le_pow_right (by omega) (by omega)
    have hpow : 2 ^ (d + 1) = 2 ^ d + 2 ^ d := by rw [Nat.pow_succ]; omega
    have hmod : (t + 1) % 2 ^ 32 = t + 1 := Nat.mod_eq_of_lt (by omega)
    have hL := splitLeft_length C seed
    have hR := splitRight_length C seed
    rw [updateBuffer]
    simp only [hmod, total]
    rw [if_neg (by omega)]
    by_cases h1 : t + 1 < 2 ^ d
    · rw [if_pos h1]
      have hl := layout_length C d (splitLeft C seed) t hL
      rw [layout, if_pos (by omega), List.append_assoc, first_append _ hl.symm]
      simp only
      have := ih (splitLeft C seed) t [] (by omega) hL h1
      simp only [List.append_nil] at this
      rw [this, List.drop_left' hl]
      simp only
      rw [layout, if_pos h1]
      simp only [List.append_assoc]
    · rw [if_neg h1]
      by_cases h2 : t + 1 = 2 ^ d
      · rw [if_pos h2]
        have hl := layout_length C d (splitLeft C seed) t hL
        rw [layout_next, if_pos (by omega), List.append_assoc,
          first_append (keySize d + 32) (by simp [hl, hR])]
        simp only
        rw [(kbSpec C d).2 _ _ hl hR]
        simp only
        rw [List.drop_left' (by simp [hl, hR])]
        rw [layout_next, if_neg (by omega), h2]
        simp
      · rw [if_neg h2]
        have hl := layout_length C d (splitRight C seed) (t - 2 ^ d) hR
        have e : (t + 2 ^ 32 - 2 ^ d) % 2 ^ 32 = t - 2 ^ d := by
          have : t + 2 ^ 32 - 2 ^ d = (t - 2 ^ d) + 2 ^ 32 := by omega
          rw [this, Nat.add_mod_right, Nat.mod_eq_of_lt (by omega)]
        rw [layout, if_neg (by omega), List.append_assoc, first_append _ hl.symm]
        simp only [e]
        have := ih (splitRight C seed) (t - 2 ^ d) [] (by omega) hR (by omega)
        simp only [List.append_nil] at this
        rw [this, List.drop_left' hl]
        simp only
        have e2 : t + 1 - 2 ^ d = t - 2 ^ d + 1 := by omega
        rw [layout, if_neg (by omega), e2]
        simp only [List.append_assoc]

/-- A key at or beyond its last period cannot be updated, and the buffer is untouched. -/
theorem updateBuffer_last : ∀ (d : Nat) (buf : Bytes) (t : Nat), d < 32 → keySize d ≤ buf.length → 2 ^ d ≤ t + 1 → t < 2 ^ 32 →
    updateBuffer C d buf t = (buf, .throw .runtimeError) := by
  intro d
  induction d with
  | zero => intro buf t _ _ _ _; rfl
  | succ d ih =>
    intro buf t hd hb ht ht'
    have h32 : 2 ^ (d + 1) ≤ 2 ^ 32 := Nat.pow_le_pow_right (by omega) (by omega)
    have hpow : 2 ^ (d + 1) = 2 ^ d + 2 ^ d := by rw [Nat.pow_succ]; omega
    have hpos : 0 < 2 ^ d := Nat.pow_pos (by omega)
    rw [keySize_succ] at hb
    have hf : first buf (keySize d) = .ok (buf.take (keySize d)) := by
      unfold first; rw [if_pos (by omega)]
    have hlen : (buf.take (keySize d)).length = keySize d := by simp; omega
    rw [updateBuffer]
    simp only [total]
    by_cases hw : t + 1 = 2 ^ 32
    · have hmod : (t + 1) % 2 ^ 32 = 0 := by rw [hw, Nat.mod_self]
      rw [hmod, if_neg (by omega), if_pos hpos, hf]
      simp only
      rw [ih _ t (by omega) (by omega) (by omega) ht']
      simp
    · have hmod : (t + 1) % 2 ^ 32 = t + 1 := Nat.mod_eq_of_lt (by omega)
      rw [hmod]
      by_cases h0 : t + 1 = 2 ^ (d + 1)
      · rw [if_pos h0]
      · rw [if_neg h0, if_neg (by omega), if_neg (by omega), hf]
        have e : (t + 2 ^ 32 - 2 ^ d) % 2 ^ 32 = t - 2 ^ d := by
          have : t + 2 ^ 32 - 2 ^ d = (t - 2 ^ d) + 2 ^ 32 := by omega
          rw [this, Nat.add_mod_right, Nat.mod_eq_of_lt (by omega)]
        simp only [e]
        rw [ih _ (t - 2 ^ d) (by omega) (by omega) (by omega) (by omega)]
        simp

/-- The key object in period `t` (obtained by updating). -/
def keyAt (d : Nat) (seed : Bytes) (t : Nat) : Key := ⟨layout C d seed t ++ Util.packBE 4 t, t⟩

theorem period_keyAt (d : Nat) (seed : Bytes) (t : Nat) (p : Nat) (hs : seed.length = 32) (ht : t < 2 ^ d) (hd : d < 32) :
    period d ⟨layout C d seed t ++ Util.packBE 4 t, p⟩ = t := by
  cases d with
  | zero => simp at ht; simp [period, ht]
  | succ d =>
    unfold period
    simp only
    rw [List.drop_left' (layout_length C (d + 1) seed t hs)]
    have h32 : 2 ^ (d + 1) ≤ 2 ^ 32 := Nat.pow_le_pow_right (by omega) (by omega)
    exact Util.unpackBE_packBE 4 t (by
      have : (256 : Nat) ^ 4 = 2 ^ 32 := by decide
      omega)

/-- works for any value of the member `period_` -/
theorem update_keyAt (d : Nat) (seed : Bytes) (t p : Nat) (hd : d < 32) (hs : seed.length = 32) (ht : t + 1 < 2 ^ d) :
    update C d ⟨layout C d seed t ++ Util.packBE 4 t, p⟩ = (keyAt C d seed (t + 1), .ok ()) := by
  cases d with
  | zero => simp at ht
  | succ d =>
    unfold update
    simp only [period_keyAt C (d + 1) seed t p hs (by omega) hd]
    rw [updateBuffer_ok C (d + 1) seed t _ hd hs ht]
    simp only
    rw [List.take_left' (layout_length C (d + 1) seed (t + 1) hs)]
    have h32 : 2 ^ (d + 1) ≤ 2 ^ 32 := Nat.pow_le_pow_right (by omega) (by omega)
    rw [Nat.mod_eq_of_lt (by omega)]
    rfl

theorem updates_keyAt (d : Nat) (seed : Bytes) (hd : d < 32) (hs : seed.length = 32) : ∀ t, t < 2 ^ d →
    updates C d t (keyAt C d seed 0) = .ok (keyAt C d seed t) := by
  intro t
  induction t with
  | zero => intro _; rfl
  | succ t ih =>
    intro ht
    rw [updates, ih (by omega)]
    simp only [Out.ok_bind]
    rw [keyAt, update_keyAt C d seed t t hd hs ht]

/-- The signature made in period `t`. -/
def sigAt : (d : Nat) → (seed : Bytes) → (t : Nat) → (msg : Bytes) → Bytes
  | 0, seed, _, msg => C.sign seed msg
  | d + 1, seed, t, msg =>
    (if t < 2 ^ d then sigAt d (splitLeft C seed) t msg else sigAt d (splitRight C seed) (t - 2 ^ d) msg) ++
      (treeKey C d (splitLeft C seed) ++ treeKey C d (splitRight C seed))

theorem sigAt_length : ∀ d s t m, (sigAt C d s t m).length = sigSize d := by
  intro d
  induction d with
  | zero => intro s t m; simp [sigAt, C.sign_length, sigSize]
  | succ d ih =>
    intro s t m
    unfold sigAt
    split <;> simp only [List.length_append, ih, treeKey_length, sigSize] <;> omega

theorem signFromBuffer_ok : ∀ (d : Nat) (seed : Bytes) (t : Nat) (msg : Bytes), seed.length = 32 →
    signFromBuffer C d (layout C d seed t) msg = .ok (sigAt C d seed t msg) ∧
    ∀ rest, 0 < d → signFromBuffer C d (layout C d seed t ++ rest) msg = .ok (sigAt C d seed t msg) := by
  intro d
  induction d with
  | zero => intro seed t msg hs; simp [signFromBuffer, layout, hs, sigAt]
  | succ d ih =>
    intro seed t msg hs
    have hL := splitLeft_length C seed
    have hR := splitRight_length C seed
    have key : ∀ rest, signFromBuffer C (d + 1) (layout C (d + 1) seed t ++ rest) msg = .ok (sigAt C (d + 1) seed t msg) := by
      intro rest
      have ho : keySize (d + 1) - 64 = keySize d + 32 := by rw [keySize_succ]; omega
      by_cases h1 : t < 2 ^ d
      · have hl := layout_length C d (splitLeft C seed) t hL
        have e2 := slice_mid (a := layout C d (splitLeft C seed) t ++ splitRight C seed)
          (b := treeKey C d (splitLeft C seed)) (c := treeKey C d (splitRight C seed) ++ rest) (keySize d + 32) 32
          (by simp [hl, hR]) (treeKey_length C _ _).symm
        have e3 := slice_mid (a := layout C d (splitLeft C seed) t ++ splitRight C seed ++ treeKey C d (splitLeft C seed))
          (b := treeKey C d (splitRight C seed)) (c := rest) (keySize d + 32 + 32) 32
          (by simp [hl, hR, treeKey_length]) (treeKey_length C _ _).symm
        rw [signFromBuffer, layout, if_pos h1, List.append_assoc, first_append _ hl.symm]
        simp only [Out.ok_bind, (ih (splitLeft C seed) t msg hL).1, ho]
        simp only [List.append_assoc] at e2 e3 ⊢
        simp only [e2, e3, Out.ok_bind, Out.pure_eq, sigAt, if_pos h1]
      · have hl := layout_length C d (splitRight C seed) (t - 2 ^ d) hR
        have e2 := slice_mid (a := layout C d (splitRight C seed) (t - 2 ^ d) ++ zeros32)
          (b := treeKey C d (splitLeft C seed)) (c := treeKey C d (splitRight C seed) ++ rest) (keySize d + 32) 32
          (by simp [hl, zeros32]) (treeKey_length C _ _).symm
        have e3 := slice_mid (a := layout C d (splitRight C seed) (t - 2 ^ d) ++ zeros32 ++ treeKey C d (splitLeft C seed))
          (b := treeKey C d (splitRight C seed)) (c := rest) (keySize d + 32 + 32) 32
          (by simp [hl, zeros32, treeKey_length]) (treeKey_length C _ _).symm
        rw [signFromBuffer, layout, if_neg h1, List.append_assoc, first_append _ hl.symm]
        simp only [Out.ok_bind, (ih (splitRight C seed) (t - 2 ^ d) msg hR).1, ho]
        simp only [List.append_assoc] at e2 e3 ⊢
        simp only [e2, e3, Out.ok_bind, Out.pure_eq, sigAt, if_neg h1]
    refine ⟨?_, fun rest _ => key rest⟩
    have := key []
    simpa using this

theorem sign_keyAt (d : Nat) (seed : Bytes) (t p : Nat) (msg : Bytes) (hs : seed.length = 32) :
    sign C d ⟨layout C d seed t ++ Util.packBE 4 t, p⟩ msg = .ok (sigAt C d seed t msg) := by
  cases d with
  | zero =>
    unfold sign
    simp only [layout]
    rw [first_append _ hs.symm]
    simp [sigAt]
  | succ d => exact (signFromBuffer_ok C (d + 1) seed t msg hs).2 _ (by omega)

/-- The last 64 bytes of an inner signature are the two public keys. -/
theorem sig_tail (sigma a b : Bytes) (ha : a.length = 32) (hb : b.length = 32) :
    ((sigma ++ (a ++ b)).drop ((sigma ++ (a ++ b)).length - 64)).take 32 = a ∧
    (sigma ++ (a ++ b)).drop ((sigma ++ (a ++ b)).length - 32) = b := by
  have h1 : (sigma ++ (a ++ b)).length - 64 = sigma.length := by simp [ha, hb]
  have h2 : (sigma ++ (a ++ b)).length - 32 = (sigma ++ a).length := by simp [ha, hb]
  constructor
  · rw [h1, List.drop_left, List.take_left' ha]
  · rw [h2, ← List.append_assoc, List.drop_left]

/-- One step of verification on a well-formed signature. -/
theorem verify_step (d t : Nat) (pk msg sigma a b : Bytes) (hsig : sigma.length = sigSize d) (ha : a.length = 32) (hb : b.length = 32) :
    verify C (d + 1) t pk msg (sigma ++ (a ++ b)) =
      if hashPair C a b ≠ pk then .throw .invalidArgument
      else if t < 2 ^ d then verify C d t a msg sigma else verify C d (t - 2 ^ d) b msg sigma := by
  rw [verify]
  simp only [(sig_tail sigma a b ha hb).1, (sig_tail sigma a b ha hb).2]
  rw [List.take_left' hsig]
  simp [sigFromBytes, hsig]

/-- The seed of the leaf that signs in period `t` (any `t`; beyond the last period: the last
leaf). -/
def leafSeed : (d : Nat) → (seed : Bytes) → (t : Nat) → Bytes
  | 0, seed, _ => seed
  | d + 1, seed, t => if t < 2 ^ d then leafSeed d (splitLeft C seed) t else leafSeed d (splitRight C seed) (t - 2 ^ d)

theorem verify_sigAt : ∀ (d : Nat) (seed : Bytes) (t : Nat) (msg : Bytes), seed.length = 32 →
    ¬ C.zeroNonce (leafSeed C d seed t) msg →
    verify C d t (treeKey C d seed) msg (sigAt C d seed t msg) = .ok true := by
  intro d
  induction d with
  | zero => intro seed t msg hs hz; simp [verify, treeKey, sigAt, C.verify_sign _ _ hs hz]
  | succ d ih =>
    intro seed t msg hs hz
    rw [leafSeed] at hz
    rw [sigAt, verify_step C d t _ msg _ _ _ (by split <;> exact sigAt_length C _ _ _ _) (treeKey_length C _ _) (treeKey_length C _ _)]
    rw [if_neg (by simp [hashPair, treeKey, splitLeft, splitRight])]
    by_cases h1 : t < 2 ^ d
    · rw [if_pos h1] at hz; rw [if_pos h1, if_pos h1]; exact ih _ _ _ (splitLeft_length C seed) hz
    · rw [if_neg h1] at hz; rw [if_neg h1, if_neg h1]; exact ih _ _ _ (splitRight_length C seed) hz

/-- The compact signature made in period `t`. -/
def csigAt : (d : Nat) → (seed : Bytes) → (t : Nat) → (msg : Bytes) → Bytes
  | 0, seed, _, msg => C.sign seed msg ++ C.pub seed
  | d + 1, seed, t, msg =>
    if t < 2 ^ d then csigAt d (splitLeft C seed) t msg ++ treeKey C d (splitRight C seed)
    else csigAt d (splitRight C seed) (t - 2 ^ d) msg ++ treeKey C d (splitLeft C seed)

theorem csigAt_length : ∀ d s t m, (csigAt C d s t m).length = compactSize d := by
  intro d
  induction d with
  | zero => intro s t m; simp [csigAt, C.sign_length, C.pub_length, compactSize]
  | succ d ih =>
    intro s t m
    unfold csigAt
    split <;> simp only [List.length_append, ih, treeKey_length, compactSize] <;> omega

theorem signCompact_ok : ∀ (d : Nat) (seed : Bytes) (t : Nat) (msg rest : Bytes), seed.length = 32 →
    signCompactFromBuffer C d (layout C d seed t ++ rest) msg t = .ok (csigAt C d seed t msg) := by
  intro d
  induction d with
  | zero =>
    intro seed t msg rest hs
    simp only [signCompactFromBuffer, layout, csigAt]
    rw [first_append _ hs.symm]; rfl
  | succ d ih =>
    intro seed t msg rest hs
    have hL := splitLeft_length C seed
    have hR := splitRight_length C seed
    rw [signCompactFromBuffer]
    by_cases h1 : t < 2 ^ d
    · rw [if_pos h1]
      have hl := layout_length C d (splitLeft C seed) t hL
      have e3 := slice_mid (a := layout C d (splitLeft C seed) t ++ splitRight C seed ++ treeKey C d (splitLeft C seed))
        (b := treeKey C d (splitRight C seed)) (c := rest) (keySize d + 32 + 32) 32
        (by simp [hl, hR, treeKey_length]) (treeKey_length C _ _).symm
      have e4 := ih (splitLeft C seed) t msg [] hL
      simp only [List.append_assoc, List.append_nil] at e3 e4
      rw [layout, if_pos h1]
      simp only [List.append_assoc]
      rw [e3, first_append _ hl.symm]
      simp only [Out.ok_bind, e4, Out.pure_eq, csigAt, if_pos h1]
    · rw [if_neg h1]
      have hl := layout_length C d (splitRight C seed) (t - 2 ^ d) hR
      have e3 := slice_mid (a := layout C d (splitRight C seed) (t - 2 ^ d) ++ zeros32)
        (b := treeKey C d (splitLeft C seed)) (c := treeKey C d (splitRight C seed) ++ rest) (keySize d + 32) 32
        (by simp [hl, zeros32]) (treeKey_length C _ _).symm
      have e4 := ih (splitRight C seed) (t - 2 ^ d) msg [] hR
      simp only [List.append_assoc, List.append_nil] at e3 e4
      rw [layout, if_neg h1]
      simp only [List.append_assoc]
      rw [e3, first_append _ hl.symm]
      simp only [Out.ok_bind, e4, Out.pure_eq, csigAt, if_neg h1]

theorem recompute_csigAt : ∀ (d : Nat) (seed : Bytes) (t : Nat) (msg : Bytes), seed.length = 32 →
    ¬ C.zeroNonce (leafSeed C d seed t) msg →
    recompute C d t msg (csigAt C d seed t msg) = .ok (treeKey C d seed) := by
  intro d
  induction d with
  | zero =>
    intro seed t msg hs hz
    have h1 : (C.sign seed msg ++ C.pub seed).take 64 = C.sign seed msg := List.take_left' (C.sign_length _ _)
    have h2 : (C.sign seed msg ++ C.pub seed).drop ((C.sign seed msg ++ C.pub seed).length - 32) = C.pub seed := by
      apply List.drop_left'
      simp [C.sign_length, C.pub_length]
    simp only [recompute, csigAt, treeKey, h1, h2, C.verify_sign _ _ hs hz]
    simp
  | succ d ih =>
    intro seed t msg hs hz
    rw [leafSeed] at hz
    have step : ∀ (sg pk : Bytes), sg.length = compactSize d → pk.length = 32 →
        (sg ++ pk).drop ((sg ++ pk).length - 32) = pk ∧ (sg ++ pk).take (compactSize d) = sg := by
      intro sg pk h1 h2
      refine ⟨?_, List.take_left' h1⟩
      apply List.drop_left'
      simp [h2]
    rw [recompute, csigAt]
    by_cases h1 : t < 2 ^ d
    · rw [if_pos h1] at hz
      rw [if_pos h1, if_pos h1]
      obtain ⟨e1, e2⟩ := step (csigAt C d (splitLeft C seed) t msg) (treeKey C d (splitRight C seed)) (csigAt_length C _ _ _ _) (treeKey_length C _ _)
      simp only [e1, e2, csigAt_length, ne_eq, not_true_eq_false, if_false, ih _ t msg (splitLeft_length C seed) hz, Out.ok_bind, Out.pure_eq]
      rfl
    · rw [if_neg h1] at hz
      rw [if_neg h1, if_neg h1]
      obtain ⟨e1, e2⟩ := step (csigAt C d (splitRight C seed) (t - 2 ^ d) msg) (treeKey C d (splitLeft C seed)) (csigAt_length C _ _ _ _) (treeKey_length C _ _)
      simp only [e1, e2, csigAt_length, ne_eq, not_true_eq_false, if_false, ih _ (t - 2 ^ d) msg (splitRight_length C seed) hz, Out.ok_bind, Out.pure_eq]
      rfl

end Cardano.Kes
