import Verif.Model.Util
import Verif.Spec.Util

namespace Cardano

theorem leNat_lt (bs : Bytes) : leNat bs < 256 ^ bs.length := by
  induction bs with
  | nil => simp [leNat]
  | cons b bs ih =>
    have := b.toNat_lt
    simp only [leNat, List.length_cons, Nat.pow_succ]
    omega

theorem leNat_append (a b : Bytes) : leNat (a ++ b) = leNat a + 256 ^ a.length * leNat b := by
  induction a with
  | nil => simp [leNat]
  | cons x a ih =>
    simp only [List.cons_append, leNat, ih, List.length_cons, Nat.pow_succ, Nat.mul_add]
    rw [Nat.mul_comm (256 ^ a.length) 256, Nat.mul_assoc]; omega

theorem beNat_cons (b : UInt8) (bs : Bytes) : beNat (b :: bs) = b.toNat * 256 ^ bs.length + beNat bs := by
  simp [beNat, leNat_append, leNat, Nat.mul_comm, Nat.add_comm]

theorem beNat_lt (bs : Bytes) : beNat bs < 256 ^ bs.length := by
  have := leNat_lt bs.reverse
  simpa [beNat] using this

theorem leNat_inj : ∀ {a b : Bytes}, a.length = b.length → leNat a = leNat b → a = b := by
  intro a
  induction a with
  | nil => intro b h _; cases b <;> simp_all
  | cons x a ih =>
    intro b h e
    cases b with
    | nil => simp at h
    | cons y b =>
      simp only [leNat] at e
      have hx := x.toNat_lt
      have hy := y.toNat_lt
      have h1 : x.toNat = y.toNat := by omega
      have h2 : leNat a = leNat b := by omega
      rw [UInt8.toNat_inj.mp h1, ih (by simpa using h) h2]

theorem beNat_inj {a b : Bytes} (h : a.length = b.length) (e : beNat a = beNat b) : a = b := by
  have := leNat_inj (a := a.reverse) (b := b.reverse) (by simpa using h) e
  simpa using this

namespace Util

theorem packLE_length (n v) : (packLE n v).length = n := by simp [packLE]
theorem packBE_length (n v) : (packBE n v).length = n := by simp [packBE]

theorem packLE_succ (n v) : packLE (n + 1) v = UInt8.ofNat (v &&& 0xFF) :: packLE n (v / 256) := by
  unfold packLE
  rw [List.range_succ_eq_map]
  simp only [List.map_cons, List.map_map]
  congr 1
  apply List.map_congr_left
  intro i _
  simp only [Function.comp]
  have : v >>> (8 * (i + 1)) = (v / 256) >>> (8 * i) := by
    rw [Nat.shiftRight_eq_div_pow, Nat.shiftRight_eq_div_pow, Nat.div_div_eq_div_mul]
    congr 1
    rw [Nat.mul_add, Nat.pow_add, Nat.mul_comm]
  rw [← this]

theorem byte_and (v : Nat) : (UInt8.ofNat (v &&& 0xFF)).toNat = v % 256 := by
  have : v &&& 0xFF = v % 256 := Nat.and_two_pow_sub_one_eq_mod v 8
  rw [this]; simp

theorem leNat_packLE : ∀ n v, leNat (packLE n v) = v % 256 ^ n := by
  intro n
  induction n with
  | zero => intro v; simp [packLE, leNat, Nat.mod_one]
  | succ n ih =>
    intro v
    rw [packLE_succ, leNat, byte_and, ih, Nat.pow_succ, Nat.mul_comm (256 ^ n) 256, Nat.mod_mul]

theorem packBE_eq (n v) : packBE n v = (packLE n v).reverse := by
  apply List.ext_getElem
  · simp [packBE, packLE]
  · intro i h1 h2
    simp [packBE, packLE]

theorem beNat_packBE (n v) : beNat (packBE n v) = v % 256 ^ n := by
  rw [packBE_eq, beNat, List.reverse_reverse, leNat_packLE]

theorem or_foldl {α} (f : α → Nat) (l : List α) : ∀ a, l.foldl (fun v i => v ||| f i) a = a ||| l.foldl (fun v i => v ||| f i) 0 := by
  induction l with
  | nil => intro a; simp
  | cons x l ih =>
    intro a
    simp only [List.foldl_cons]
    rw [ih, ih (0 ||| f x)]
    simp [Nat.or_assoc]

theorem foldl_congr' {α β} (f g : β → α → β) (l : List α) (h : ∀ b, ∀ a ∈ l, f b a = g b a) : ∀ b, l.foldl f b = l.foldl g b := by
  induction l with
  | nil => intro b; rfl
  | cons x l ih =>
    intro b
    rw [List.foldl_cons, List.foldl_cons, h b x (by simp)]
    exact ih (fun b a ha => h b a (by simp [ha])) _

/-- the loop without the (redundant) reduction -/
def orLE (w : Nat) (bs : Bytes) : Nat :=
  (List.range bs.length).foldl (fun v i => v ||| ((bs.getD i 0).toNat <<< (8 * (w + i)))) 0

theorem orLE_eq (bs : Bytes) : ∀ w, orLE w bs = leNat bs * 2 ^ (8 * w) := by
  induction bs with
  | nil => intro w; simp [orLE, leNat]
  | cons b bs ih =>
    intro w
    have h := ih (w + 1)
    unfold orLE at h ⊢
    rw [List.length_cons, List.range_succ_eq_map, List.foldl_cons, or_foldl, List.foldl_map]
    simp only [Nat.succ_eq_add_one, List.getD_cons_succ, List.getD_cons_zero, Nat.zero_or, Nat.add_zero]
    have e : ∀ (l : List Nat) a, l.foldl (fun v i => v ||| (bs.getD i 0).toNat <<< (8 * (w + (i + 1)))) a
        = l.foldl (fun v i => v ||| (bs.getD i 0).toNat <<< (8 * (w + 1 + i))) a := by
      intro l a
      apply foldl_congr'
      intro b i _
      rw [Nat.add_assoc w 1 i, Nat.add_comm 1 i]
    rw [e, h]
    have hb : b.toNat <<< (8 * w) < 2 ^ (8 * (w + 1)) := by
      rw [Nat.shiftLeft_eq, Nat.mul_add, Nat.pow_add, Nat.mul_comm]
      have := b.toNat_lt
      exact Nat.mul_lt_mul_of_pos_left (by simpa using this) (Nat.pow_pos (by omega))
    rw [Nat.or_comm, ← Nat.shiftLeft_eq, ← Nat.shiftLeft_add_eq_or_of_lt hb, leNat,
      Nat.shiftLeft_eq, Nat.shiftLeft_eq, Nat.mul_add 8, Nat.pow_add, Nat.add_mul]
    rw [Nat.add_comm]
    congr 1
    rw [Nat.mul_comm 256, Nat.mul_assoc, Nat.mul_comm 256]

theorem shl_mod (b : UInt8) (n i : Nat) (h : i < n) :
    (b.toNat <<< (8 * i)) % 2 ^ (8 * n) = b.toNat <<< (8 * i) := by
  apply Nat.mod_eq_of_lt
  have hb := b.toNat_lt
  rw [Nat.shiftLeft_eq]
  calc b.toNat * 2 ^ (8 * i) < 2 ^ 8 * 2 ^ (8 * i) := Nat.mul_lt_mul_of_pos_right hb (Nat.pow_pos (by omega))
    _ = 2 ^ (8 * (i + 1)) := by rw [← Nat.pow_add]; congr 1; omega
    _ ≤ 2 ^ (8 * n) := Nat.pow_le_pow_right (by omega) (by omega)

theorem unpackLE_eq (bs : Bytes) : unpackLE bs.length bs = leNat bs := by
  have h := orLE_eq bs 0
  simp only [Nat.mul_zero, Nat.pow_zero, Nat.mul_one] at h
  rw [← h]
  unfold unpackLE orLE
  apply foldl_congr'
  intro v i hi
  rw [shl_mod _ _ _ (by simpa using hi)]
  simp

theorem or_fold_perm {α} (f : α → Nat) {l m : List α} (h : l.Perm m) :
    l.foldl (fun v i => v ||| f i) 0 = m.foldl (fun v i => v ||| f i) 0 := by
  induction h with
  | nil => rfl
  | cons x _ ih => simp only [List.foldl_cons]; rw [or_foldl, or_foldl f _ (0 ||| f x), ih]
  | swap x y l => simp only [List.foldl_cons]; rw [or_foldl, or_foldl f _ (0 ||| f x ||| f y)]; congr 1; simp [Nat.or_comm]
  | trans _ _ h1 h2 => rw [h1, h2]

theorem unpackBE_eq (bs : Bytes) : unpackBE bs.length bs = beNat bs := by
  rw [beNat, ← unpackLE_eq, List.length_reverse]
  unfold unpackBE unpackLE
  have h1 : ∀ (f : Nat → Nat) (n : Nat), (List.range n).foldl (fun v i => v ||| f i) 0 =
      (List.range n).foldl (fun v i => v ||| f (n - 1 - i)) 0 := by
    intro f n
    rw [← List.foldl_map (f := fun i => n - 1 - i) (g := fun v i => v ||| f i)]
    rw [← or_fold_perm f (l := (List.range n).reverse) (List.reverse_perm _)]
    congr 1
    apply List.ext_getElem <;> simp
  have h2 := h1 (fun i => ((bs.getD i 0).toNat <<< (8 * (bs.length - 1 - i))) % 2 ^ (8 * bs.length)) bs.length
  rw [h2]
  apply foldl_congr'
  intro v i hi
  have hi : i < bs.length := by simpa using hi
  congr 2
  have e1 : bs.length - 1 - (bs.length - 1 - i) = i := by omega
  rw [e1]
  congr 2
  rw [List.getD_eq_getElem?_getD, List.getD_eq_getElem?_getD, List.getElem?_reverse hi]

theorem unpackBE_packBE (n v : Nat) (h : v < 256 ^ n) : unpackBE n (packBE n v) = v := by
  have := unpackBE_eq (packBE n v)
  rw [packBE_length] at this
  rw [this, beNat_packBE, Nat.mod_eq_of_lt h]

end Util
end Cardano
