import Verif.Lemmas.Crc

/-! # CRC-32: bit errors of small weight

The difference of two checksummed bit strings is a bit string `e`; the checksums agree exactly if
feeding `e` from the zero state gives zero.  Feeding is linear, the bit at distance `i` from the
end contributes `x^(i+1)`.  A check by the kernel over the columns shows that no one to four of
the last 896 columns add up to zero. -/

namespace Cardano.Byron

/-- Add up the columns of the ones, the first bit having column `u`. -/
def comb : BitVec 32 → List Bool → BitVec 32
  | _, [] => 0#32
  | u, b :: r => (if b then u else 0#32) ^^^ comb (crcShift u) r

theorem crcShift_comb : ∀ (r : List Bool) (u : BitVec 32), crcShift (comb u r) = comb (crcShift u) r := by
  intro r
  induction r with
  | nil => intro u; exact crcShift_zero
  | cons b r ih =>
    intro u
    rw [comb, crcShift_xor, ih, comb]
    cases b
    · simp [crcShift_zero]
    · simp

theorem feed_comb (r : List Bool) : r.reverse.foldl crcBit 0#32 = comb (crcShift 1#32) r := by
  induction r with
  | nil => rfl
  | cons b r ih =>
    rw [List.reverse_cons, List.foldl_append, ih, List.foldl_cons, List.foldl_nil]
    unfold crcBit
    rw [crcShift_xor, crcShift_comb, comb, BitVec.xor_comm]
    cases b
    · simp [crcShift_zero]
    · simp

/-- The positions in which two bit strings differ. -/
def diff (a b : List Bool) : List Bool := List.zipWith (fun x y => x != y) a b

theorem feed_diff : ∀ (a b : List Bool) (s t : BitVec 32), a.length = b.length →
    a.foldl crcBit s ^^^ b.foldl crcBit t = (diff a b).foldl crcBit (s ^^^ t) := by
  intro a
  induction a with
  | nil => intro b s t h; cases b <;> simp_all [diff]
  | cons x a ih =>
    intro b s t h
    cases b with
    | nil => simp at h
    | cons y b =>
      simp only [List.foldl_cons, diff, List.zipWith_cons_cons]
      rw [ih b _ _ (by simpa using h)]
      congr 1
      unfold crcBit
      rw [← crcShift_xor]
      congr 1
      have e : ∀ p q : BitVec 32, s ^^^ p ^^^ (t ^^^ q) = s ^^^ t ^^^ (p ^^^ q) := by intro p q; ac_rfl
      rw [e]
      congr 1
      cases x <;> cases y <;> simp

/-! ### The check, on numbers -/

/-- The shift. -/
def tn (s : Nat) : Nat := bif Nat.beq (Nat.land s 1) 1 then Nat.xor (Nat.shiftRight s 1) 0xEDB88320 else Nat.shiftRight s 1

theorem tn_toNat (s : BitVec 32) : (crcShift s).toNat = tn s.toNat := by
  unfold crcShift tn
  have h0 : s.getLsbD 0 = Nat.beq (Nat.land s.toNat 1) 1 := by
    rw [BitVec.getLsbD, Nat.testBit_zero]
    show _ = Nat.beq (s.toNat &&& 1) 1
    rw [Nat.and_one_is_mod, Bool.eq_iff_iff, decide_eq_true_eq, Nat.beq_eq]
  rw [BitVec.toNat_xor, BitVec.toNat_ushiftRight, h0]
  cases Nat.beq (Nat.land s.toNat 1) 1
  · simp only [cond_false, Bool.false_eq_true, if_false]
    exact Nat.xor_zero _
  · rfl

/-- The columns after `c`. -/
def cols : (n c : Nat) → List Nat
  | 0, _ => []
  | n + 1, c => tn c :: cols n (tn c)

/-- `if b then t else f`, as cheap as possible for the kernel. -/
noncomputable abbrev br (b t f : Bool) : Bool := Bool.rec f t b

theorem br_true_iff (a b : Bool) : br a b false = true ↔ a = true ∧ b = true := by
  cases a <;> simp [br]

/-- Is `n` different from all?  (Written with the recursor, as the kernel has to evaluate it.) -/
noncomputable def fresh (n : Nat) (l : List Nat) : Bool :=
  List.rec true (fun m _ ih => br (Nat.beq n m) false ih) l

theorem fresh_cons (n m : Nat) (l : List Nat) : fresh n (m :: l) = bif Nat.beq n m then false else fresh n l := by
  show br _ _ _ = _
  cases Nat.beq n m <;> rfl

theorem fresh_iff (n : Nat) : ∀ l, fresh n l = true ↔ n ∉ l := by
  intro l
  induction l with
  | nil => simp [fresh]
  | cons m l ih =>
    rw [fresh_cons, List.mem_cons, not_or, ← ih]
    cases h : Nat.beq n m
    · have : n ≠ m := Nat.ne_of_beq_eq_false h
      simp [this]
    · have : n = m := Nat.eq_of_beq_eq_true h
      simp [this]

/-- Bitmap of the 14 bits from bit `k` on. -/
def bmap (k : Nat) : List Nat → Nat
  | [] => 0
  | x :: l => Nat.lor (Nat.shiftLeft 1 (Nat.land (Nat.shiftRight x k) 16383)) (bmap k l)

/-- Are these bits of `x` in the bitmap? -/
def hit (B k x : Nat) : Bool := Nat.beq (Nat.land 1 (Nat.shiftRight B (Nat.land (Nat.shiftRight x k) 16383))) 1

theorem hit_iff (B k x : Nat) : hit B k x = B.testBit (Nat.land (Nat.shiftRight x k) 16383) := by
  unfold hit
  generalize Nat.land (Nat.shiftRight x k) 16383 = i
  show Nat.beq (1 &&& (B >>> i)) 1 = B.testBit i
  unfold Nat.testBit
  rw [Nat.one_and_eq_mod_two, Bool.eq_iff_iff, Nat.beq_eq, bne_iff_ne]
  omega

theorem hit_bmap (k x : Nat) : ∀ l, x ∈ l → hit (bmap k l) k x = true := by
  intro l
  induction l with
  | nil => intro h; cases h
  | cons y l ih =>
    intro h
    rw [hit_iff, bmap]
    show ((1 <<< Nat.land (Nat.shiftRight y k) 16383) ||| bmap k l).testBit _ = true
    rw [Nat.testBit_or, Bool.or_eq_true]
    rcases List.mem_cons.mp h with rfl | h
    · left
      rw [Nat.one_shiftLeft, Nat.testBit_two_pow_self]
    · right
      rw [← hit_iff]; exact ih h

/-- `x` is not in `S`, tried on the bitmaps first. -/
noncomputable abbrev look (S : List Nat) (B1 B2 B3 x : Nat) : Bool :=
  br (hit B1 0 x) (br (hit B2 9 x) (br (hit B3 18 x) (fresh x S) true) true) true

/-- No sum of `a` and an element of the list is in `S`. -/
noncomputable def row (S : List Nat) (B1 B2 B3 a : Nat) (l : List Nat) : Bool :=
  List.rec true (fun b _ ih => br (look S B1 B2 B3 (Nat.xor a b)) ih false) l

theorem row_cons (S : List Nat) (B1 B2 B3 a b : Nat) (l : List Nat) :
    row S B1 B2 B3 a (b :: l) = br (look S B1 B2 B3 (Nat.xor a b)) (row S B1 B2 B3 a l) false := rfl

/-- No sum of two elements of the list (at different places) is in `S`. -/
noncomputable def rows (S : List Nat) (B1 B2 B3 : Nat) (l : List Nat) : Bool :=
  List.rec true (fun a l ih => br (row S B1 B2 B3 a l) ih false) l

theorem rows_cons (S : List Nat) (B1 B2 B3 a : Nat) (l : List Nat) :
    rows S B1 B2 B3 (a :: l) = br (row S B1 B2 B3 a l) (rows S B1 B2 B3 l) false := rfl

/-- One, two, three and four of the columns `u`, `cols n u` containing `u` do not add up to 0. -/
noncomputable def checkFrom (u : Nat) (L S : List Nat) : Bool :=
  br (fresh u L) (rows S (bmap 0 S) (bmap 9 S) (bmap 18 S) L) false

theorem cond_true_iff (a b : Bool) : (bif a then b else false) = true ↔ a = true ∧ b = true := by
  cases a <;> simp

theorem look_sound {S : List Nat} {x : Nat} (h : look S (bmap 0 S) (bmap 9 S) (bmap 18 S) x = true) : x ∉ S := by
  intro hx
  unfold look at h
  rw [hit_bmap 0 x S hx, hit_bmap 9 x S hx, hit_bmap 18 x S hx] at h
  exact (fresh_iff x S).mp h hx

theorem row_sound {S : List Nat} {a : Nat} : ∀ l, row S (bmap 0 S) (bmap 9 S) (bmap 18 S) a l = true → ∀ b ∈ l, a ^^^ b ∉ S := by
  intro l
  induction l with
  | nil => intro _ b hb; cases hb
  | cons c l ih =>
    intro h b hb
    rw [row_cons, br_true_iff] at h
    rcases List.mem_cons.mp hb with rfl | hb
    · exact look_sound h.1
    · exact ih h.2 b hb

theorem rows_sound {S : List Nat} : ∀ l, rows S (bmap 0 S) (bmap 9 S) (bmap 18 S) l = true → l.Pairwise (fun a b => a ^^^ b ∉ S) := by
  intro l
  induction l with
  | nil => intro _; exact List.Pairwise.nil
  | cons a l ih =>
    intro h
    rw [rows_cons, br_true_iff] at h
    exact List.pairwise_cons.mpr ⟨row_sound l h.1, ih h.2⟩

theorem check896 : checkFrom 0x80000000 (cols 895 0x80000000)
    (0x80000000 :: (cols 895 0x80000000).map (Nat.xor 0x80000000)) = true := by decide +kernel

/-! ### Weights -/

/-- Number of ones. -/
def weight (l : List Bool) : Nat := l.countP (fun b => b)

theorem cols_prefix : ∀ (m n c : Nat), m ≤ n → (cols m c).Sublist (cols n c) := by
  intro m
  induction m with
  | zero => intro n c _; exact List.nil_sublist _
  | succ m ih =>
    intro n c h
    cases n with
    | zero => omega
    | succ n => exact List.Sublist.cons_cons _ (ih n _ (by omega))

/-- A combination of columns is the sum of as many columns as there are ones. -/
theorem comb_select : ∀ (r : List Bool) (v : BitVec 32), ∃ sel : List Nat, sel.Sublist (cols r.length v.toNat) ∧
    sel.length = weight r ∧ (comb (crcShift v) r).toNat = sel.foldr (fun a b => a ^^^ b) 0 := by
  intro r
  induction r with
  | nil => intro v; exact ⟨[], List.nil_sublist _, rfl, rfl⟩
  | cons b r ih =>
    intro v
    obtain ⟨sel, h1, h2, h3⟩ := ih (crcShift v)
    rw [tn_toNat] at h1
    rw [comb, BitVec.toNat_xor, h3]
    cases b
    · refine ⟨sel, List.Sublist.cons _ h1, ?_, ?_⟩
      · simpa [weight] using h2
      · simp
    · refine ⟨tn v.toNat :: sel, List.Sublist.cons_cons _ h1, ?_, ?_⟩
      · rw [List.length_cons, h2]; simp [weight]
      · simp [tn_toNat]

theorem comb_iter (r : List Bool) : ∀ (n : Nat) (u : BitVec 32), comb (iter crcShift n u) r = iter crcShift n (comb u r) := by
  intro n
  induction n with
  | zero => intro u; rfl
  | succ n ih => intro u; rw [iter, iter, ih, crcShift_comb]

theorem iter_zero : ∀ n, iter crcShift n 0#32 = 0#32 := by
  intro n
  induction n with
  | zero => rfl
  | succ n ih => rw [iter, crcShift_zero, ih]

theorem comb_shift_zero {r : List Bool} {u : BitVec 32} (n : Nat) (h : comb (iter crcShift n u) r = 0#32) : comb u r = 0#32 := by
  rw [comb_iter] at h
  exact iter_inj (fun a b => crcShift_inj) n (h.trans (iter_zero n).symm)

theorem split_weight : ∀ r : List Bool, 1 ≤ weight r → ∃ m r', r = List.replicate m false ++ true :: r' ∧ weight r = weight r' + 1 := by
  intro r
  induction r with
  | nil => intro h; simp [weight] at h
  | cons b r ih =>
    intro h
    cases b
    · have hw : weight (false :: r) = weight r := by simp [weight]
      obtain ⟨m, r', e, h'⟩ := ih (by omega)
      exact ⟨m + 1, r', by rw [e]; rfl, by rw [hw]; exact h'⟩
    · exact ⟨0, r, rfl, by simp [weight]⟩

theorem comb_skip : ∀ (m : Nat) (r : List Bool) (u : BitVec 32), comb u (List.replicate m false ++ r) = comb (iter crcShift m u) r := by
  intro m
  induction m with
  | zero => intro r u; rfl
  | succ m ih =>
    intro r u
    rw [List.replicate_succ, List.cons_append, comb, ih, iter]
    simp

/-- Feeding a bit string of at most 896 bits with one to four ones does not give zero. -/
theorem feed_weight (e : List Bool) (hl : e.length ≤ 896) (h1 : 1 ≤ weight e) (h4 : weight e ≤ 4) :
    e.foldl crcBit 0#32 ≠ 0#32 := by
  intro h0
  have hf := feed_comb e.reverse
  rw [List.reverse_reverse, h0] at hf
  have hu : crcShift 1#32 = iter crcShift 32 0x80000000#32 := by decide +kernel
  rw [hu] at hf
  have hz := comb_shift_zero 32 hf.symm
  have hw : weight e.reverse = weight e := by simp [weight]
  obtain ⟨m, r, e1, e2⟩ := split_weight e.reverse (by omega)
  have hlen : r.length ≤ 895 := by
    have := congrArg List.length e1
    simp only [List.length_reverse, List.length_append, List.length_replicate, List.length_cons] at this
    omega
  rw [e1, comb_skip] at hz
  have hz := comb_shift_zero m hz
  rw [comb, if_pos rfl] at hz
  obtain ⟨sel, s1, s2, s3⟩ := comb_select r 0x80000000#32
  have hz := xor_eq_zero hz
  rw [← hz] at s3
  have s1 := s1.trans (cols_prefix r.length 895 _ hlen)
  have hc := check896
  unfold checkFrom at hc
  rw [br_true_iff, fresh_iff] at hc
  obtain ⟨c1, c2⟩ := hc
  have c2 := rows_sound _ c2
  have hu' : (0x80000000#32).toNat = 0x80000000 := rfl
  rw [hu'] at s1 s3
  have c2 := c2.sublist s1
  match sel, s1, s2, s3, c2 with
  | [], _, _, s3, _ => exact absurd s3 (by decide)
  | [a], s1, _, s3, _ =>
    simp only [List.foldr_cons, List.foldr_nil, Nat.xor_zero] at s3
    have hm : a ∈ cols 895 0x80000000 := s1.subset List.mem_cons_self
    rw [← s3] at hm
    exact c1 hm
  | [a, b], _, _, s3, c2 =>
    simp only [List.foldr_cons, List.foldr_nil, Nat.xor_zero] at s3
    have := (List.pairwise_cons.mp c2).1 b (by simp)
    rw [← s3] at this
    exact this List.mem_cons_self
  | [a, b, c], s1, _, s3, c2 =>
    simp only [List.foldr_cons, List.foldr_nil, Nat.xor_zero] at s3
    have := (List.pairwise_cons.mp c2).1 b (by simp)
    apply this
    refine List.mem_cons_of_mem _ (List.mem_map.mpr ⟨c, s1.subset (by simp), ?_⟩)
    show 0x80000000 ^^^ c = a ^^^ b
    rw [s3, ← Nat.xor_assoc a b c, Nat.xor_assoc (a ^^^ b) c c, Nat.xor_self, Nat.xor_zero]
  | a :: b :: c :: d :: l, _, s2, _, _ => simp only [List.length_cons] at s2; omega

end Cardano.Byron
