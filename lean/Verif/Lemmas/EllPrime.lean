import Mathlib.NumberTheory.LucasPrimality
import Mathlib.Tactic.NormNum.Prime
import Verif.Spec.Ed25519

/-! # The order of the Ed25519 base point is prime

A chain of Pratt certificates (`lucas_primality`); modular powers are evaluated by the
kernel with repeated squaring. -/

namespace Cardano.Ed

/-- `acc * a ^ e % m` by repeated squaring. -/
def powMod : (fuel a e m acc : Nat) → Nat
  | 0, _, _, _, acc => acc
  | fuel + 1, a, e, m, acc =>
    powMod fuel (a * a % m) (e / 2) m (if e % 2 = 1 then acc * a % m else acc)

theorem powMod_eq (m : Nat) : ∀ fuel a e acc, e < 2 ^ fuel → powMod fuel a e m acc % m = acc * a ^ e % m := by
  intro fuel
  induction fuel with
  | zero =>
    intro a e acc h
    obtain rfl : e = 0 := by simpa using h
    simp [powMod]
  | succ fuel ih =>
    intro a e acc h
    rw [powMod, ih _ _ _ (by rw [pow_succ] at h; omega)]
    have hsq : (a * a % m) ^ (e / 2) % m = (a * a) ^ (e / 2) % m := by rw [← Nat.pow_mod]
    have he : e = 2 * (e / 2) + e % 2 := by omega
    have hpow : a ^ e = (a * a) ^ (e / 2) * a ^ (e % 2) := by
      conv_lhs => rw [he]
      rw [pow_add, pow_mul, pow_two]
    rw [Nat.mul_mod, hsq, hpow]
    by_cases h1 : e % 2 = 1
    · rw [if_pos h1, h1, pow_one, Nat.mod_mod, ← Nat.mul_mod]
      congr 1; ring
    · have h0 : e % 2 = 0 := by omega
      rw [if_neg h1, h0, pow_zero, Nat.mul_one, ← Nat.mul_mod]

theorem pratt (p a : Nat) (fs : List Nat) (hp : 1 < p) (hlt : p < 2 ^ 256) (hprod : fs.prod = p - 1)
    (hfs : ∀ q ∈ fs, q.Prime) (h1 : powMod 256 a (p - 1) p 1 % p = 1)
    (h2 : ∀ q ∈ fs, powMod 256 a ((p - 1) / q) p 1 % p ≠ 1) : p.Prime := by
  have cast : ∀ e, e < 2 ^ 256 → ((a : ZMod p) ^ e = 1 ↔ powMod 256 a e p 1 % p = 1) := by
    intro e he
    rw [powMod_eq p 256 a e 1 he, Nat.one_mul]
    have h1p : 1 % p = 1 := Nat.mod_eq_of_lt hp
    constructor
    · intro h
      have : ((a ^ e : Nat) : ZMod p) = ((1 : Nat) : ZMod p) := by push_cast; exact h
      have := (ZMod.natCast_eq_natCast_iff' _ _ _).mp this
      rw [this, h1p]
    · intro h
      have : ((a ^ e : Nat) : ZMod p) = ((1 : Nat) : ZMod p) :=
        (ZMod.natCast_eq_natCast_iff' _ _ _).mpr (by rw [h, h1p])
      push_cast at this; exact this
  refine lucas_primality p (a : ZMod p) ((cast _ (by omega)).mpr h1) ?_
  intro q hq hd h
  rw [← hprod] at hd
  obtain ⟨r, hr, hqr⟩ := (Nat.Prime.prime hq).dvd_prod_iff.mp hd
  obtain rfl : q = r := (Nat.prime_dvd_prime_iff_eq hq (hfs r hr)).mp hqr
  refine h2 q hr ((cast _ ?_).mp h)
  exact Nat.lt_of_le_of_lt (Nat.div_le_self _ _) (by omega)

theorem prime0 : Nat.Prime 14741173 := by
  refine pratt 14741173 2 [2, 2, 3, 3, 409477] (by decide +kernel) (by decide +kernel) (by decide +kernel) ?_ (by decide +kernel) (by decide +kernel)
  simp only [List.forall_mem_cons, List.not_mem_nil, false_imp_iff, implies_true, and_true]
  exact ⟨by norm_num, by norm_num, by norm_num, by norm_num, by norm_num⟩

theorem prime1 : Nat.Prime 58964693 := by
  refine pratt 58964693 2 [2, 2, 14741173] (by decide +kernel) (by decide +kernel) (by decide +kernel) ?_ (by decide +kernel) (by decide +kernel)
  simp only [List.forall_mem_cons, List.not_mem_nil, false_imp_iff, implies_true, and_true]
  exact ⟨by norm_num, by norm_num, prime0⟩

theorem prime2 : Nat.Prime 3044861653679985063343 := by
  refine pratt 3044861653679985063343 5 [2, 3, 11, 30703, 82163, 132667, 137849] (by decide +kernel) (by decide +kernel) (by decide +kernel) ?_ (by decide +kernel) (by decide +kernel)
  simp only [List.forall_mem_cons, List.not_mem_nil, false_imp_iff, implies_true, and_true]
  exact ⟨by norm_num, by norm_num, by norm_num, by norm_num, by norm_num, by norm_num, by norm_num⟩

theorem prime3 : Nat.Prime 198211423230930754013084525763697 := by
  refine pratt 198211423230930754013084525763697 5 [2, 2, 2, 2, 3, 23, 58964693, 3044861653679985063343] (by decide +kernel) (by decide +kernel) (by decide +kernel) ?_ (by decide +kernel) (by decide +kernel)
  simp only [List.forall_mem_cons, List.not_mem_nil, false_imp_iff, implies_true, and_true]
  exact ⟨by norm_num, by norm_num, by norm_num, by norm_num, by norm_num, by norm_num, prime1, prime2⟩

theorem prime4 : Nat.Prime 292386187 := by
  refine pratt 292386187 2 [2, 3, 3, 3, 3, 307, 5879] (by decide +kernel) (by decide +kernel) (by decide +kernel) ?_ (by decide +kernel) (by decide +kernel)
  simp only [List.forall_mem_cons, List.not_mem_nil, false_imp_iff, implies_true, and_true]
  exact ⟨by norm_num, by norm_num, by norm_num, by norm_num, by norm_num, by norm_num, by norm_num⟩

theorem prime5 : Nat.Prime 213441916511 := by
  refine pratt 213441916511 13 [2, 5, 73, 292386187] (by decide +kernel) (by decide +kernel) (by decide +kernel) ?_ (by decide +kernel) (by decide +kernel)
  simp only [List.forall_mem_cons, List.not_mem_nil, false_imp_iff, implies_true, and_true]
  exact ⟨by norm_num, by norm_num, by norm_num, prime4⟩

theorem prime6 : Nat.Prime 1224481 := by
  refine pratt 1224481 13 [2, 2, 2, 2, 2, 3, 5, 2551] (by decide +kernel) (by decide +kernel) (by decide +kernel) ?_ (by decide +kernel) (by decide +kernel)
  simp only [List.forall_mem_cons, List.not_mem_nil, false_imp_iff, implies_true, and_true]
  exact ⟨by norm_num, by norm_num, by norm_num, by norm_num, by norm_num, by norm_num, by norm_num, by norm_num⟩

theorem prime7 : Nat.Prime 1257559732178653 := by
  refine pratt 1257559732178653 2 [2, 2, 3, 7, 23, 531581, 1224481] (by decide +kernel) (by decide +kernel) (by decide +kernel) ?_ (by decide +kernel) (by decide +kernel)
  simp only [List.forall_mem_cons, List.not_mem_nil, false_imp_iff, implies_true, and_true]
  exact ⟨by norm_num, by norm_num, by norm_num, by norm_num, by norm_num, by norm_num, prime6⟩

theorem prime8 : Nat.Prime 4434155615661930479 := by
  refine pratt 4434155615661930479 17 [2, 41, 43, 1257559732178653] (by decide +kernel) (by decide +kernel) (by decide +kernel) ?_ (by decide +kernel) (by decide +kernel)
  simp only [List.forall_mem_cons, List.not_mem_nil, false_imp_iff, implies_true, and_true]
  exact ⟨by norm_num, by norm_num, by norm_num, prime7⟩

theorem prime9 : Nat.Prime 172054593956031949258510691 := by
  refine pratt 172054593956031949258510691 2 [2, 5, 1361, 2851, 4434155615661930479] (by decide +kernel) (by decide +kernel) (by decide +kernel) ?_ (by decide +kernel) (by decide +kernel)
  simp only [List.forall_mem_cons, List.not_mem_nil, false_imp_iff, implies_true, and_true]
  exact ⟨by norm_num, by norm_num, by norm_num, by norm_num, prime8⟩

theorem prime10 : Nat.Prime 19757330305831588566944191468367130476339 := by
  refine pratt 19757330305831588566944191468367130476339 2 [2, 269, 213441916511, 172054593956031949258510691] (by decide +kernel) (by decide +kernel) (by decide +kernel) ?_ (by decide +kernel) (by decide +kernel)
  simp only [List.forall_mem_cons, List.not_mem_nil, false_imp_iff, implies_true, and_true]
  exact ⟨by norm_num, by norm_num, prime5, prime9⟩

theorem prime11 : Nat.Prime 276602624281642239937218680557139826668747 := by
  refine pratt 276602624281642239937218680557139826668747 2 [2, 7, 19757330305831588566944191468367130476339] (by decide +kernel) (by decide +kernel) (by decide +kernel) ?_ (by decide +kernel) (by decide +kernel)
  simp only [List.forall_mem_cons, List.not_mem_nil, false_imp_iff, implies_true, and_true]
  exact ⟨by norm_num, by norm_num, prime10⟩

theorem ellL_prime : Nat.Prime ellL := by
  refine pratt ellL 2 [2, 2, 3, 11, 198211423230930754013084525763697, 276602624281642239937218680557139826668747] (by decide +kernel) (by decide +kernel) (by decide +kernel) ?_ (by decide +kernel) (by decide +kernel)
  simp only [List.forall_mem_cons, List.not_mem_nil, false_imp_iff, implies_true, and_true]
  exact ⟨by norm_num, by norm_num, by norm_num, by norm_num, prime3, prime11⟩

instance : Fact ellL.Prime := ⟨ellL_prime⟩

end Cardano.Ed
