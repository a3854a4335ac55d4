import Verif.Lemmas.JsonText
import Verif.Spec.JsonTree
import Verif.Props.GenesisFaults

/-! # Genesis files as texts (C107) -/

namespace Cardano.Genesis.JsonText

open Cardano Cardano.Util Cardano.Spec.Json

/-! ## The tree of a value -/

theorem utf8_iff {b : Bytes} {s : String} : utf8 b = some s ↔ bytesOf s = b := by
  unfold utf8 bytesOf String.fromUTF8? String.toUTF8
  constructor
  · intro h
    split at h
    · cases h; rfl
    · simp at h
  · rintro rfl
    have e : (⟨s.toByteArray.data.toList.toArray⟩ : ByteArray) = s.toByteArray := by simp
    rw [e, dif_pos s.isValidUTF8]
    rfl

theorem decimal_eq (b : Bytes) : decimal b = natOf b := by
  have gen : ∀ (b : Bytes) n, b.foldl (fun n c => 10 * n + (c.toNat - 48)) n = n * 10 ^ b.length + natOf b := by
    intro b
    induction b with
    | nil => simp [natOf]
    | cons c b ih => intro n; rw [List.foldl_cons, ih, natOf, List.length_cons, Nat.pow_succ]; ring
  rw [decimal, gen]; simp

theorem all_digit (t : Bytes) : t.all digit = true ↔ ∀ c ∈ t, IsDigit c := by
  simp only [List.all_eq_true, digit_iff]

theorem numJ_iff (D : Bytes → Option Dbl) (t : Bytes) (j : J) : numJ D t = some j ↔ Means D (.num t) j := by
  have real : ¬ IsNat64 t → ¬ IsNeg64 t → ((D t).map J.float = some j ↔ Means D (.num t) j) := by
    intro hn hg
    constructor
    · intro h
      obtain ⟨d, hd, rfl⟩ := Option.map_eq_some_iff.1 h
      exact .real hn hg hd
    · intro h
      cases h with
      | nat h => exact absurd h hn
      | neg h => exact absurd h hg
      | real _ _ h => rw [h]; rfl
  unfold numJ
  by_cases hd : t.all digit = true
  · rw [if_pos hd, decimal_eq]
    have hd' := (all_digit t).1 hd
    have hg : ¬ IsNeg64 t := by
      rintro ⟨ds, rfl, -⟩
      have := hd' 45 (by simp)
      revert this; unfold IsDigit; decide
    by_cases hl : natOf t < 2 ^ 64
    · rw [if_pos hl]
      have hn : IsNat64 t := ⟨hd', hl⟩
      constructor
      · intro h; cases h; exact .nat hn
      · intro h
        cases h with
        | nat h => rfl
        | neg h => exact absurd h hg
        | real h _ _ => exact absurd hn h
    · rw [if_neg hl]
      exact real (fun h => hl h.2) hg
  · rw [if_neg hd]
    have hn : ¬ IsNat64 t := fun h => hd ((all_digit t).2 h.1)
    by_cases hg : (t.head? = some 45 && t.tail.all digit) = true
    · rw [if_pos hg]
      simp only [Bool.and_eq_true, decide_eq_true_eq] at hg
      match t with
      | [] => simp at hg
      | c :: ds =>
        obtain ⟨hc, hds⟩ := hg
        simp only [List.head?_cons, Option.some.injEq] at hc
        subst hc
        rw [List.tail_cons] at hds
        show (if decimal ds ≤ 2 ^ 63 then some (J.sint (-(decimal ds : Int))) else (D (45 :: ds)).map J.float) = some j ↔ _
        rw [decimal_eq]
        by_cases hl : natOf ds ≤ 2 ^ 63
        · rw [if_pos hl]
          have hg : IsNeg64 (45 :: ds) := ⟨ds, rfl, (all_digit ds).1 hds, hl⟩
          constructor
          · intro h; cases h; exact .neg hg
          · intro h
            cases h with
            | nat h => exact absurd h hn
            | neg h => rfl
            | real _ h _ => exact absurd hg h
        · rw [if_neg hl]
          refine real hn ?_
          rintro ⟨ds', e, -, h⟩
          cases e; exact hl h
    · rw [if_neg hg]
      refine real hn ?_
      rintro ⟨ds, rfl, h, -⟩
      exact hg (by simp only [List.head?_cons, List.tail_cons, (all_digit ds).2 h]; decide)

/-- Sorted by key, without duplicates. -/
def Incr (l : List (String × J)) : Prop := List.Pairwise (fun p q => p.1 < q.1) l

theorem assign_keys (k : String) (v : J) (l : List (String × J)) : ∀ p ∈ assign k v l, p.1 = k ∨ p ∈ l := by
  induction l with
  | nil => simp [assign]
  | cons q l ih =>
    obtain ⟨k', v'⟩ := q
    intro p hp
    rw [assign] at hp
    split at hp
    · rcases List.mem_cons.1 hp with rfl | h
      · exact .inl rfl
      · exact .inr h
    · split at hp
      · rcases List.mem_cons.1 hp with rfl | h
        · exact .inl rfl
        · exact .inr (by simp [h])
      · rcases List.mem_cons.1 hp with rfl | h
        · exact .inr (by simp)
        · rcases ih p h with h | h
          · exact .inl h
          · exact .inr (by simp [h])

theorem assign_incr (k : String) (v : J) (l : List (String × J)) (h : Incr l) : Incr (assign k v l) := by
  induction l with
  | nil => simp [assign, Incr]
  | cons q l ih =>
    obtain ⟨k', v'⟩ := q
    have h' := List.pairwise_cons.1 h
    rw [assign]
    split
    · rename_i hk
      refine List.pairwise_cons.2 ⟨?_, h⟩
      intro p hp
      rcases List.mem_cons.1 hp with rfl | hp
      · exact hk
      · exact lt_trans hk (h'.1 p hp)
    · rename_i hk
      split
      · rename_i e
        subst e
        exact List.pairwise_cons.2 ⟨h'.1, h'.2⟩
      · rename_i e
        refine List.pairwise_cons.2 ⟨?_, ih h'.2⟩
        intro p hp
        rcases assign_keys k v l p hp with e' | hp
        · rw [e']; exact lt_of_le_of_ne (not_lt.1 hk) (Ne.symm e)
        · exact h'.1 p hp

theorem lookup_if (k x : String) (v : J) (l : List (String × J)) :
    List.lookup x ((k, v) :: l) = if x = k then some v else l.lookup x := by
  rw [List.lookup_cons]
  by_cases e : x = k
  · subst e; simp
  · rw [beq_eq_false_iff_ne.2 e, if_neg e]

theorem lookup_none_of_lt {k : String} {l : List (String × J)} (h : ∀ p ∈ l, k < p.1) : l.lookup k = none := by
  induction l with
  | nil => rfl
  | cons p l ih =>
    obtain ⟨k', v'⟩ := p
    rw [lookup_if, if_neg (ne_of_lt (h (k', v') (by simp)))]
    exact ih fun q hq => h q (by simp [hq])

theorem lookup_assign (k : String) (v : J) (l : List (String × J)) (h : Incr l) (x : String) :
    (assign k v l).lookup x = if x = k then some v else l.lookup x := by
  induction l with
  | nil =>
    rw [assign, lookup_if]
  | cons q l ih =>
    obtain ⟨k', v'⟩ := q
    have h' := List.pairwise_cons.1 h
    rw [assign]
    split
    · rw [lookup_if]
    · split
      · rename_i e'
        subst e'
        rw [lookup_if, lookup_if]
        by_cases e : x = k <;> simp [e]
      · rename_i hk e'
        rw [lookup_if, lookup_if, ih h'.2]
        by_cases e : x = k
        · subst e; simp [e']
        · simp [e]

theorem incr_ext {l l' : List (String × J)} (h : Incr l) (h' : Incr l') (e : ∀ k : String, l.lookup k = l'.lookup k) : l = l' := by
  induction l generalizing l' with
  | nil =>
    match l' with
    | [] => rfl
    | (k, v) :: l' => have := e k; simp at this
  | cons p l ih =>
    obtain ⟨k, v⟩ := p
    match l' with
    | [] => have := e k; simp at this
    | (k', v') :: l' =>
      have a := List.pairwise_cons.1 h
      have a' := List.pairwise_cons.1 h'
      have hk : k = k' := by
        rcases lt_trichotomy k k' with hlt | rfl | hlt
        · have := e k
          rw [lookup_none_of_lt (l := (k', v') :: l')] at this
          · simp at this
          · intro p hp
            rcases List.mem_cons.1 hp with rfl | hp
            · exact hlt
            · exact lt_trans hlt (a'.1 p hp)
        · rfl
        · have := e k'
          rw [lookup_none_of_lt (l := (k, v) :: l)] at this
          · simp at this
          · intro p hp
            rcases List.mem_cons.1 hp with rfl | hp
            · exact hlt
            · exact lt_trans hlt (a.1 p hp)
      subst hk
      have hv : v = v' := by have := e k; simpa using this
      subst hv
      congr 1
      refine ih a.2 a'.2 fun x => ?_
      by_cases hx : x = k
      · subst hx
        rw [lookup_none_of_lt fun p hp => a.1 p hp, lookup_none_of_lt fun p hp => a'.1 p hp]
      · have := e x
        rw [lookup_if, lookup_if, if_neg hx, if_neg hx] at this
        exact this

/-- The map after all assignments. -/
def assignAll (acc : List (String × J)) (ms : List (String × J)) : List (String × J) :=
  ms.foldl (fun m p => assign p.1 p.2 m) acc

theorem assignAll_spec (ms acc : List (String × J)) (h : Incr acc) :
    Incr (assignAll acc ms) ∧ ∀ k : String, (assignAll acc ms).lookup k = (ms.reverse.lookup k).or (acc.lookup k) := by
  induction ms generalizing acc with
  | nil => exact ⟨h, by simp [assignAll]⟩
  | cons p ms ih =>
    obtain ⟨k, v⟩ := p
    have hs := ih (assign k v acc) (assign_incr k v acc h)
    refine ⟨hs.1, fun x => ?_⟩
    have := hs.2 x
    simp only [assignAll, List.foldl_cons] at this ⊢
    rw [this, lookup_assign k v acc h, List.reverse_cons, List.lookup_append, lookup_if, List.lookup_nil]
    by_cases e : x = k
    · subst e; cases List.lookup x ms.reverse <;> simp
    · simp [e]

theorem treeMembers_iff_aux (D : Bytes → Option Dbl) (m : List (Bytes × Value)) (acc l : List (String × J))
    (P : ∀ p ∈ m, ∀ j, tree D p.2 = some j ↔ Means D p.2 j) :
    treeMembers D m acc = some l ↔ ∃ ms, MeansMembers D m ms ∧ l = assignAll acc ms := by
  induction m generalizing acc with
  | nil =>
    rw [treeMembers]
    constructor
    · intro h; cases h; exact ⟨[], .nil, rfl⟩
    · rintro ⟨ms, h, rfl⟩; cases h; rfl
  | cons p m ih =>
    obtain ⟨k, v⟩ := p
    have ih' := fun acc => ih acc fun p hp => P p (by simp [hp])
    rw [treeMembers]
    simp only [Option.bind_eq_bind, Option.bind_eq_some_iff]
    constructor
    · rintro ⟨s, hs, j, hj, h⟩
      obtain ⟨ms, hms, rfl⟩ := (ih' _).1 h
      rw [utf8_iff] at hs
      subst hs
      exact ⟨(s, j) :: ms, .cons ((P (bytesOf s, _) (by simp) j).1 hj) hms, rfl⟩
    · rintro ⟨ms, h, rfl⟩
      cases h with
      | @cons s _ j _ ms hj hms =>
        exact ⟨s, utf8_iff.2 rfl, j, (P (bytesOf s, _) (by simp) j).2 hj, (ih' _).2 ⟨ms, hms, rfl⟩⟩

theorem treeList_iff_aux (D : Bytes → Option Dbl) (l : List Value) (js : List J)
    (P : ∀ v ∈ l, ∀ j, tree D v = some j ↔ Means D v j) : treeList D l = some js ↔ MeansAll D l js := by
  induction l generalizing js with
  | nil =>
    rw [treeList]
    constructor
    · intro h; cases h; exact .nil
    · intro h; cases h; rfl
  | cons v l ih =>
    have ih' := fun js => ih js fun p hp => P p (by simp [hp])
    rw [treeList]
    simp only [Option.bind_eq_bind, Option.bind_eq_some_iff, Option.pure_def, Option.some.injEq]
    constructor
    · rintro ⟨j, hj, js, hjs, rfl⟩
      exact .cons ((P v (by simp) j).1 hj) ((ih' js).1 hjs)
    · intro h
      cases h with
      | cons h1 h2 => exact ⟨_, (P v (by simp) _).2 h1, _, (ih' _).2 h2, rfl⟩

theorem tree_iff (D : Bytes → Option Dbl) : ∀ (v : Value) (j : J), tree D v = some j ↔ Means D v j
  | .null, j => by
    rw [tree]
    constructor
    · intro h; cases h; exact .null
    · intro h; cases h; rfl
  | .bool b, j => by
    rw [tree]
    constructor
    · intro h; cases h; exact .bool
    · intro h; cases h; rfl
  | .num t, j => by rw [tree, numJ_iff]
  | .str s, j => by
    rw [tree, Option.map_eq_some_iff]
    constructor
    · rintro ⟨x, hx, rfl⟩
      rw [utf8_iff] at hx
      subst hx
      exact .str
    · intro h; cases h with
      | @str x => exact ⟨x, utf8_iff.2 rfl, rfl⟩
  | .arr l, j => by
    have P : ∀ v ∈ l, ∀ j, tree D v = some j ↔ Means D v j := fun v _ => tree_iff D v
    rw [tree, Option.map_eq_some_iff]
    constructor
    · rintro ⟨js, h, rfl⟩
      exact .arr ((treeList_iff_aux D l js P).1 h)
    · intro h; cases h with
      | @arr _ js h => exact ⟨js, (treeList_iff_aux D l js P).2 h, rfl⟩
  | .obj m, j => by
    have P : ∀ p ∈ m, ∀ j, tree D p.2 = some j ↔ Means D p.2 j := fun p _ => tree_iff D p.2
    rw [tree, Option.map_eq_some_iff]
    constructor
    · rintro ⟨l, h, rfl⟩
      obtain ⟨ms, hms, rfl⟩ := (treeMembers_iff_aux D m [] l P).1 h
      have := assignAll_spec ms [] List.Pairwise.nil
      exact .obj hms this.1 fun k => by rw [this.2]; simp
    · intro h; cases h with
      | @obj _ ms l h hs hl =>
        have := assignAll_spec ms [] List.Pairwise.nil
        refine ⟨l, (treeMembers_iff_aux D m [] l P).2 ⟨ms, h, ?_⟩, rfl⟩
        exact incr_ext hs this.1 fun k => by rw [hl, this.2]; simp
termination_by v => v
decreasing_by
  all_goals simp_wf
  · have := List.sizeOf_lt_of_mem ‹v ∈ l›; omega
  · have := List.sizeOf_lt_of_mem ‹p ∈ m›
    obtain ⟨k, v⟩ := p
    simp only [Prod.mk.sizeOf_spec] at this
    show sizeOf v < _
    omega

/-! ## The beginning of a file -/

theorem begins_skip {f bom a b rest : Bytes} {v : Value} (e : f = bom ++ (a ++ (b ++ rest)))
    (hb : bom = [] ∨ bom = [0xEF, 0xBB, 0xBF]) (ha : Ws a) (hv : Val b v) : skipWs (skipBom f) = b ++ rest := by
  have h : skipBom f = a ++ (b ++ rest) := by
    rcases hb with rfl | rfl
    · obtain ⟨c, t, rfl, hc⟩ := val_start hv
      have hx : ∃ x y, f = x :: y ∧ x ≠ 0xEF := by
        match a with
        | [] => exact ⟨c, _, by simpa using e, hc.2.2.2⟩
        | w :: a =>
          refine ⟨w, _, by simpa using e, ?_⟩
          have := ha w (by simp)
          rintro rfl
          revert this; unfold IsWs; decide
      obtain ⟨x, y, ef, hx⟩ := hx
      rw [← List.nil_append (a ++ _), ← e, ef]
      match y with
      | [] | [_] => rfl
      | p :: q :: y => simp [skipBom, hx]
    · rw [e]; rfl
  rw [h, skip_val ha hv]

/-- Enough fuel for `first`. -/
theorem first_of {f bom a b rest : Bytes} {v : Value} (e : f = bom ++ (a ++ (b ++ rest)))
    (hb : bom = [] ∨ bom = [0xEF, 0xBB, 0xBF]) (ha : Ws a) (hv : Val b v) (hn : (∃ t, v = .num t) → NumEnd rest) :
    first f = some v := by
  simp only [first, begins_skip e hb ha hv]
  rw [value_complete hv _ rest (by simp only [List.length_append]; omega) hn]
  rfl

theorem first_sound {f : Bytes} {v : Value} (h : first f = some v) : Begins f v := by
  simp only [first, Option.map_eq_some_iff] at h
  obtain ⟨⟨v', rest⟩, h, rfl⟩ := h
  obtain ⟨b, e, hb⟩ := (sound _).1 _ _ _ h
  obtain ⟨a, ha, ea, -⟩ := skipWs_sound (skipBom f)
  rw [e] at ea
  have hbom : ∃ bom, (bom = [] ∨ bom = [0xEF, 0xBB, 0xBF]) ∧ f = bom ++ skipBom f := by
    match f with
    | [] | [_] | [_, _] => exact ⟨[], .inl rfl, rfl⟩
    | x :: y :: z :: t =>
      rw [skipBom]
      split
      · rename_i hx
        simp only [Bool.and_eq_true, decide_eq_true_eq] at hx
        exact ⟨_, .inr rfl, by simp [hx]⟩
      · exact ⟨[], .inl rfl, rfl⟩
  obtain ⟨bom, hbom, ef⟩ := hbom
  exact ⟨bom, a, b, rest, by rw [← ea]; exact ef, hbom, ha, hb⟩

theorem first_obj {f : Bytes} {m : List (Bytes × Value)} (h : Begins f (.obj m)) : first f = some (.obj m) := by
  obtain ⟨bom, a, b, rest, e, hb, ha, hv⟩ := h
  exact first_of e hb ha hv (by rintro ⟨t, ht⟩; cases ht)

theorem val_obj_start {b : Bytes} {m : List (Bytes × Value)} (h : Val b (.obj m)) : ∃ t, b = 123 :: t := by
  cases h with
  | noMembers _ => exact ⟨_, rfl⟩
  | obj _ => exact ⟨_, rfl⟩

/-! ## C107 -/

/-- **C107** A JSON text has one value: no two readings of the same bytes are allowed by RFC 8259. -/
theorem C107_unambiguous (f : Bytes) (v v' : Value) (h : Text f v) (h' : Text f v') : v = v' := by
  have key : ∀ v, Text f v → first f = some v := by
    rintro v ⟨a, b, z, e, ha, hz, hb⟩
    refine first_of (bom := []) (by simpa using e) (.inl rfl) ha hb fun _ => ?_
    intro c t ez
    have hc : IsWs c := hz c (by rw [ez]; simp)
    unfold IsWs at hc
    unfold IsDigit
    rcases hc with rfl | rfl | rfl | rfl <;> decide
  have := key v h
  rw [key v' h'] at this
  exact (Option.some.inj this).symm

/-- **C107** A file is read for what its text says: if it begins with a JSON object, reading it gives what reading the
meaning of this object gives, whatever follows the object. -/
theorem C107_reads {α} (double : Bytes → Option Dbl) (read : J → Out α) (f : Bytes) (m : List (Bytes × Value)) (j : J)
    (hf : Begins f (.obj m)) (hj : Means double (.obj m) j) : readFile double read (some f) = read j := by
  simp only [readFile, Option.map_some, first_obj hf, Option.bind_some, (tree_iff double _ _).2 hj, fromFile]

/-- The reader takes objects only. -/
theorem exact_of {α} (double : Bytes → Option Dbl) (read : J → Out α) (hr : ∀ j, (∀ l, j ≠ .obj l) → ∃ e, read j = .throw e)
    (f : Bytes) (o : Out α) (ho : ∀ e, o ≠ .throw e) :
    readFile double read (some f) = o ↔ ∃ m j, Begins f (.obj m) ∧ Means double (.obj m) j ∧ read j = o := by
  constructor
  · intro h
    simp only [readFile, Option.map_some] at h
    match h1 : first f with
    | none => rw [h1] at h; exact absurd h.symm (ho _)
    | some v =>
      rw [h1, Option.bind_some] at h
      match h2 : tree double v with
      | none => rw [h2] at h; exact absurd h.symm (ho _)
      | some j =>
        rw [h2] at h
        replace h : read j = o := h
        have hm := (tree_iff double _ _).1 h2
        by_cases hj : ∀ l, j ≠ .obj l
        · obtain ⟨e, he⟩ := hr j hj
          exact absurd (h.symm.trans he) (ho e)
        · have hv : ∃ m, v = .obj m := by
            cases hm with
            | @obj m _ _ _ _ _ => exact ⟨m, rfl⟩
            | _ => exact absurd (fun l e => by cases e) hj
          obtain ⟨m, rfl⟩ := hv
          exact ⟨m, j, first_sound h1, hm, h⟩
  · rintro ⟨m, j, hf, hj, h⟩
    rw [C107_reads double read f m j hf hj, h]

theorem byron_objects (j : J) (h : ∀ l, j ≠ .obj l) : ∃ e, Byron.Params.fromJson j = .throw e := by
  cases j with
  | obj l => exact absurd rfl (h l)
  | _ => exact ⟨_, rfl⟩

theorem shelley_objects (j : J) (h : ∀ l, j ≠ .obj l) : ∃ e, Shelley.Params.fromJson j = .throw e := by
  cases j with
  | obj l => exact absurd rfl (h l)
  | _ => exact ⟨_, rfl⟩

theorem alonzo_objects (j : J) (h : ∀ l, j ≠ .obj l) : ∃ e, Alonzo.Params.fromJson j = .throw e := by
  cases j with
  | obj l => exact absurd rfl (h l)
  | _ => exact ⟨_, rfl⟩

theorem conway_objects (j : J) (h : ∀ l, j ≠ .obj l) : ∃ e, Conway.Params.fromJson j = .throw e := by
  cases j with
  | obj l => exact absurd rfl (h l)
  | _ => exact ⟨_, rfl⟩

/-- **C107** Exactly the files are read that begin with a JSON object whose meaning is a readable document (C73 says which
these are), and the configuration is that of the document; in every era. -/
theorem C107_exact (double : Bytes → Option Dbl) (f : Bytes) :
    (∀ g, readFile double Byron.Params.fromJson (some f) = .ok g ↔
      ∃ m j, Begins f (.obj m) ∧ Means double (.obj m) j ∧ Byron.Params.fromJson j = .ok g) ∧
    (∀ g, readFile double Shelley.Params.fromJson (some f) = .ok g ↔
      ∃ m j, Begins f (.obj m) ∧ Means double (.obj m) j ∧ Shelley.Params.fromJson j = .ok g) ∧
    (∀ g, readFile double Alonzo.Params.fromJson (some f) = .ok g ↔
      ∃ m j, Begins f (.obj m) ∧ Means double (.obj m) j ∧ Alonzo.Params.fromJson j = .ok g) ∧
    (∀ g, readFile double Conway.Params.fromJson (some f) = .ok g ↔
      ∃ m j, Begins f (.obj m) ∧ Means double (.obj m) j ∧ Conway.Params.fromJson j = .ok g) :=
  ⟨fun _ => exact_of double _ byron_objects f _ (by simp), fun _ => exact_of double _ shelley_objects f _ (by simp),
    fun _ => exact_of double _ alonzo_objects f _ (by simp), fun _ => exact_of double _ conway_objects f _ (by simp)⟩

/-- **C107** The file contents for which reading is undefined behaviour: those beginning with an object whose meaning holds
a number that does not fit (`Fatal`, C73); all other files that are not read are refused with an exception. -/
theorem C107_undefined (double : Bytes → Option Dbl) (f : Bytes) :
    (readFile double Byron.Params.fromJson (some f) = .ub ↔ ∃ m j, Begins f (.obj m) ∧ Means double (.obj m) j ∧ Fatal Byron.paramsS j) ∧
    (readFile double Shelley.Params.fromJson (some f) = .ub ↔ ∃ m j, Begins f (.obj m) ∧ Means double (.obj m) j ∧ Fatal Shelley.orderS j) ∧
    (readFile double Alonzo.Params.fromJson (some f) = .ub ↔ ∃ m j, Begins f (.obj m) ∧ Means double (.obj m) j ∧ Fatal Alonzo.paramsS j) ∧
    (readFile double Conway.Params.fromJson (some f) = .ub ↔ ∃ m j, Begins f (.obj m) ∧ Means double (.obj m) j ∧ Fatal Conway.paramsS j) := by
  have h := fun j => C73_exact j
  simp only [fromFile] at h
  refine ⟨?_, ?_, ?_, ?_⟩
  · rw [exact_of double _ byron_objects f _ (by simp)]; simp only [(h _).1.2]
  · rw [exact_of double _ shelley_objects f _ (by simp)]; simp only [(h _).2.1.2]
  · rw [exact_of double _ alonzo_objects f _ (by simp)]; simp only [(h _).2.2.1.2]
  · rw [exact_of double _ conway_objects f _ (by simp)]; simp only [(h _).2.2.2.2]

theorem refused_of {α} (double : Bytes → Option Dbl) (read : J → Out α) (hr : ∀ j, (∀ l, j ≠ .obj l) → ∃ e, read j = .throw e)
    (R F : J → Prop) (hR : ∀ j, (∃ g, read j = .ok g) ↔ R j) (hF : ∀ j, read j = .ub ↔ F j) (f : Bytes) :
    (∃ e, readFile double read (some f) = .throw e) ↔
      ¬ ∃ m j, Begins f (.obj m) ∧ Means double (.obj m) j ∧ (R j ∨ F j) := by
  constructor
  · rintro ⟨e, h⟩ ⟨m, j, hf, hj, hx⟩
    rw [C107_reads double read f m j hf hj] at h
    rcases hx with hx | hx
    · obtain ⟨g, hg⟩ := (hR j).2 hx
      rw [h] at hg; cases hg
    · have := (hF j).2 hx
      rw [h] at this; cases this
  · intro hn
    match h : readFile double read (some f) with
    | .throw e => exact ⟨e, rfl⟩
    | .ok g =>
      obtain ⟨m, j, hf, hj, hx⟩ := (exact_of double read hr f _ (by simp)).1 h
      exact absurd ⟨m, j, hf, hj, .inl ((hR j).1 ⟨g, hx⟩)⟩ hn
    | .ub =>
      obtain ⟨m, j, hf, hj, hx⟩ := (exact_of double read hr f _ (by simp)).1 h
      exact absurd ⟨m, j, hf, hj, .inr ((hF j).1 hx)⟩ hn

/-- **C107** Every other file is refused with an exception: exactly the byte strings that do not begin with a JSON object
whose meaning has all the fields of the era with values of the right kinds (`Readable`, C73), nor one with a number that does not
fit met before anything missing (`Fatal`). -/
theorem C107_refused (double : Bytes → Option Dbl) (f : Bytes) :
    ((∃ e, readFile double Byron.Params.fromJson (some f) = .throw e) ↔
      ¬ ∃ m j, Begins f (.obj m) ∧ Means double (.obj m) j ∧ (Readable Byron.paramsS j ∨ Fatal Byron.paramsS j)) ∧
    ((∃ e, readFile double Shelley.Params.fromJson (some f) = .throw e) ↔
      ¬ ∃ m j, Begins f (.obj m) ∧ Means double (.obj m) j ∧ (Readable Shelley.orderS j ∨ Fatal Shelley.orderS j)) ∧
    ((∃ e, readFile double Alonzo.Params.fromJson (some f) = .throw e) ↔
      ¬ ∃ m j, Begins f (.obj m) ∧ Means double (.obj m) j ∧ (Readable Alonzo.paramsS j ∨ Fatal Alonzo.paramsS j)) ∧
    ((∃ e, readFile double Conway.Params.fromJson (some f) = .throw e) ↔
      ¬ ∃ m j, Begins f (.obj m) ∧ Means double (.obj m) j ∧ (Readable Conway.paramsS j ∨ Fatal Conway.paramsS j)) := by
  have h := fun j => C73_exact j
  simp only [fromFile] at h
  exact ⟨refused_of double _ byron_objects _ _ (fun j => (h j).1.1) (fun j => (h j).1.2) f,
    refused_of double _ shelley_objects _ _ (fun j => (h j).2.1.1) (fun j => (h j).2.1.2) f,
    refused_of double _ alonzo_objects _ _ (fun j => (h j).2.2.1.1) (fun j => (h j).2.2.1.2) f,
    refused_of double _ conway_objects _ _ (fun j => (h j).2.2.2.1) (fun j => (h j).2.2.2.2) f⟩

/-- **C107** A file that breaks off is refused: no proper beginning of a document (an incomplete download, a crash of the
program that wrote it) is read by any reader. -/
theorem C107_truncated {α} (double : Bytes → Option Dbl) (read : J → Out α) (bom a b p q : Bytes) (m : List (Bytes × Value))
    (hb : bom = [] ∨ bom = [0xEF, 0xBB, 0xBF]) (ha : Ws a) (hv : Val b (.obj m)) (e : p ++ q = bom ++ (a ++ b)) (hq : q ≠ []) :
    ∃ x, readFile double read (some p) = .throw x := by
  have hn : first p = none := by
    match h1 : first p with
    | none => rfl
    | some v =>
      obtain ⟨bom', a', b', rest, ep, hb', ha', hv'⟩ := first_sound h1
      have e1 := begins_skip (f := p ++ q) (rest := rest ++ q) (by rw [ep]; simp) hb' ha' hv'
      have e2 := begins_skip (f := p ++ q) (rest := []) (by rw [e]; simp) hb ha hv
      obtain ⟨t, rfl⟩ := val_obj_start hv
      rw [e2, List.append_nil] at e1
      have hnum : ¬ ∃ t, v = .num t := by
        rintro ⟨t', rfl⟩
        cases hv' with
        | num hn =>
          obtain ⟨c, u, rfl, hc⟩ := num_start hn
          simp only [List.cons_append, List.cons.injEq] at e1
          exact (num_byte hc).2.1 e1.1.symm
      have v1 := value_complete hv (2 * (123 :: t).length + 1) [] (by omega) (by rintro ⟨_, h⟩; cases h)
      have v2 := value_complete hv' (2 * (123 :: t).length + 1) (rest ++ q)
        (by rw [e1]; simp only [List.length_append]; omega) fun h => absurd h hnum
      rw [List.append_nil] at v1
      rw [← e1, v1] at v2
      have : rest ++ q = [] := by simpa using (congrArg (fun o => o.map Prod.snd) v2).symm
      exact absurd (List.append_eq_nil_iff.1 this).2 hq
  exact ⟨.other, by simp only [readFile, Option.map_some, hn, Option.bind_none, fromFile]⟩

/-! ### Layout -/

theorem bytesOf_inj {s t : String} (h : bytesOf s = bytesOf t) : s = t := by
  have a : utf8 (bytesOf t) = some s := utf8_iff.2 h
  have b : utf8 (bytesOf t) = some t := utf8_iff.2 rfl
  rw [a] at b
  exact Option.some.inj b

theorem meansAll_swap {D : Bytes → Option Dbl} {v v' : Value} (h : ∀ j, Means D v j → Means D v' j) (l r : List Value) (js : List J) :
    MeansAll D (l ++ v :: r) js → MeansAll D (l ++ v' :: r) js := by
  induction l generalizing js with
  | nil =>
    intro hm
    cases hm with
    | cons a b => exact .cons (h _ a) b
  | cons x l ih =>
    intro hm
    cases hm with
    | cons a b => exact .cons a (ih _ b)

theorem meansMembers_swap {D : Bytes → Option Dbl} {v v' : Value} (h : ∀ j, Means D v j → Means D v' j) (k : Bytes)
    (l r : List (Bytes × Value)) (ms : List (String × J)) :
    MeansMembers D (l ++ (k, v) :: r) ms → MeansMembers D (l ++ (k, v') :: r) ms := by
  induction l generalizing ms with
  | nil =>
    intro hm
    cases hm with
    | cons a b => exact .cons (h _ a) b
  | cons x l ih =>
    intro hm
    cases hm with
    | cons a b => exact .cons a (ih _ b)

theorem meansMembers_perm {D : Bytes → Option Dbl} {m m' : List (Bytes × Value)} (h : m.Perm m') (ms : List (String × J)) :
    MeansMembers D m ms → ∃ ms', MeansMembers D m' ms' ∧ ms.Perm ms' := by
  induction h generalizing ms with
  | nil => intro hm; exact ⟨ms, hm, .refl _⟩
  | cons x _ ih =>
    intro hm
    cases hm with
    | cons a b =>
      obtain ⟨ms', h1, h2⟩ := ih _ b
      exact ⟨_, .cons a h1, h2.cons _⟩
  | swap x y l =>
    intro hm
    cases hm with
    | cons a b =>
      cases b with
      | cons c d => exact ⟨_, .cons c (.cons a d), .swap _ _ _⟩
  | trans _ _ ih1 ih2 =>
    intro hm
    obtain ⟨m1, h1, p1⟩ := ih1 _ hm
    obtain ⟨m2, h2, p2⟩ := ih2 _ h1
    exact ⟨m2, h2, p1.trans p2⟩

theorem meansMembers_names {D : Bytes → Option Dbl} {m : List (Bytes × Value)} {ms : List (String × J)} (h : MeansMembers D m ms) :
    m.map Prod.fst = ms.map fun p => bytesOf p.1 := by
  induction m generalizing ms with
  | nil => cases h; rfl
  | cons x m ih =>
    cases h with
    | cons a b => simp [ih b]

theorem lookup_mem_iff {l : List (String × J)} (h : (l.map Prod.fst).Nodup) (k : String) (v : J) :
    l.lookup k = some v ↔ (k, v) ∈ l := by
  induction l with
  | nil => simp
  | cons p l ih =>
    obtain ⟨k', v'⟩ := p
    simp only [List.map_cons, List.nodup_cons] at h
    rw [lookup_if]
    by_cases e : k = k'
    · subst e
      rw [if_pos rfl]
      constructor
      · intro h; cases h; simp
      · intro hm
        rcases List.mem_cons.1 hm with hm | hm
        · cases hm; rfl
        · exact absurd (List.mem_map_of_mem (f := Prod.fst) hm) h.1
    · rw [if_neg e, ih h.2]
      simp [e]

theorem lookup_perm {l l' : List (String × J)} (p : l.Perm l') (h : (l.map Prod.fst).Nodup) (k : String) : l.lookup k = l'.lookup k := by
  have h' : (l'.map Prod.fst).Nodup := ((p.map Prod.fst).nodup_iff).1 h
  apply Option.ext
  intro v
  rw [lookup_mem_iff h, lookup_mem_iff h', p.mem_iff]

theorem means_order {D : Bytes → Option Dbl} {m m' : List (Bytes × Value)} (p : m.Perm m') (hn : (m.map Prod.fst).Nodup) (j : J) :
    Means D (.obj m) j → Means D (.obj m') j := by
  intro h
  cases h with
  | @obj _ ms l hm hs hl =>
    obtain ⟨ms', hm', pm⟩ := meansMembers_perm p ms hm
    refine .obj hm' hs fun k => ?_
    rw [hl]
    have hk : (ms.map Prod.fst).Nodup := by
      rw [meansMembers_names hm] at hn
      have : ms.map (fun p => bytesOf p.1) = (ms.map Prod.fst).map bytesOf := by simp
      rw [this] at hn
      exact List.Nodup.of_map _ hn
    have pr : ms.reverse.Perm ms'.reverse := (List.reverse_perm ms).trans (pm.trans (List.reverse_perm ms').symm)
    refine lookup_perm pr ?_ k
    rw [List.map_reverse]
    exact List.nodup_reverse.2 hk

theorem means_same {D : Bytes → Option Dbl} {v v' : Value} (h : SameUpToOrder v v') : ∀ j, Means D v j ↔ Means D v' j := by
  induction h with
  | refl => intro j; rfl
  | trans _ _ ih1 ih2 => intro j; rw [ih1, ih2]
  | element _ ih =>
    intro j
    constructor <;> intro hm <;> cases hm with
    | arr h => exact .arr (meansAll_swap (fun j => by first | exact (ih j).1 | exact (ih j).2) _ _ _ h)
  | member _ ih =>
    intro j
    constructor <;> intro hm <;> cases hm with
    | obj h a b => exact .obj (meansMembers_swap (fun j => by first | exact (ih j).1 | exact (ih j).2) _ _ _ _ h) a b
  | order p hn =>
    intro j
    exact ⟨means_order p hn j, means_order p.symm (((p.map Prod.fst).nodup_iff).1 hn) j⟩

theorem same_obj {v v' : Value} (h : SameUpToOrder v v') : (∃ m, v = .obj m) → ∃ m, v' = .obj m := by
  induction h with
  | refl => exact id
  | trans _ _ ih1 ih2 => exact fun h => ih2 (ih1 h)
  | element _ _ => rintro ⟨m, hm⟩; cases hm
  | member _ _ => exact fun _ => ⟨_, rfl⟩
  | order _ _ => exact fun _ => ⟨_, rfl⟩

/-- **C107** Layout does not matter: two files whose objects differ only in the order of members (at any depth) give the same result
for every reader, whatever white space, escapes and trailing bytes the texts have. -/
theorem C107_layout {α} (double : Bytes → Option Dbl) (read : J → Out α) (f f' : Bytes) (m : List (Bytes × Value)) (v' : Value)
    (hf : Begins f (.obj m)) (hf' : Begins f' v') (h : SameUpToOrder (.obj m) v') :
    readFile double read (some f) = readFile double read (some f') := by
  obtain ⟨m', rfl⟩ := same_obj h ⟨m, rfl⟩
  have e : tree double (.obj m) = tree double (.obj m') := by
    apply Option.ext
    intro j
    rw [tree_iff, tree_iff, means_same h]
  simp only [readFile, Option.map_some, first_obj hf, first_obj hf', Option.bind_some, e]

/-- **C107** A file whose object has the format of the era is read, and every field of the configuration is the one in the
text (for Shelley all but the slot length, C73). -/
theorem C107_faithful (double : Bytes → Option Dbl) (f : Bytes) (m : List (Bytes × Value)) (j : J)
    (hf : Begins f (.obj m)) (hj : Means double (.obj m) j) :
    (HasShape Byron.paramsS j → ∃ g : Byron.Params, readFile double Byron.Params.fromJson (some f) = .ok g ∧ Agree Byron.paramsS j g.toJson) ∧
    (HasShape Shelley.paramsS j → ∃ g : Shelley.Params, readFile double Shelley.Params.fromJson (some f) = .ok g ∧ Agree Shelley.readS j g.toJson) ∧
    (HasShape Alonzo.paramsS j → ∃ g : Alonzo.Params, readFile double Alonzo.Params.fromJson (some f) = .ok g ∧ Agree Alonzo.paramsS j g.toJson) ∧
    (HasShape Conway.paramsS j → ∃ g : Conway.Params, readFile double Conway.Params.fromJson (some f) = .ok g ∧ Agree Conway.paramsS j g.toJson) := by
  have h := C73_faithful j
  refine ⟨fun hs => ?_, fun hs => ?_, fun hs => ?_, fun hs => ?_⟩
  · obtain ⟨g, -, h1, h2⟩ := h.1 hs
    exact ⟨g, by rw [C107_reads double _ f m j hf hj]; exact h1, h2⟩
  · obtain ⟨g, -, h1, h2⟩ := C73_shelley_partial j hs
    exact ⟨g, by rw [C107_reads double _ f m j hf hj]; exact h1, h2⟩
  · obtain ⟨g, -, h1, h2⟩ := h.2.1 hs
    exact ⟨g, by rw [C107_reads double _ f m j hf hj]; exact h1, h2⟩
  · obtain ⟨g, -, h1, h2⟩ := h.2.2 hs
    exact ⟨g, by rw [C107_reads double _ f m j hf hj]; exact h1, h2⟩

/-- **C107** A configuration survives being written and read as text: every text that means what `to_json` gives (however a
JSON printer lays it out) is read back as the same configuration (Byron, Alonzo, Conway; for Shelley see C60). -/
theorem C107_written_read (double : Bytes → Option Dbl) (f : Bytes) (m : List (Bytes × Value)) (hf : Begins f (.obj m)) :
    (∀ g : Byron.Params, g.WF → Means double (.obj m) g.toJson → readFile double Byron.Params.fromJson (some f) = .ok g) ∧
    (∀ g : Alonzo.Params, g.WF → Means double (.obj m) g.toJson → readFile double Alonzo.Params.fromJson (some f) = .ok g) ∧
    (∀ g : Conway.Params, g.WF → Means double (.obj m) g.toJson → readFile double Conway.Params.fromJson (some f) = .ok g) := by
  refine ⟨fun g hg hm => ?_, fun g hg hm => ?_, fun g hg hm => ?_⟩
  · rw [C107_reads double _ f m _ hf hm]; exact Byron.Params.law.1 g hg
  · rw [C107_reads double _ f m _ hf hm]; exact Alonzo.Params.law.1 g hg
  · rw [C107_reads double _ f m _ hf hm]; exact Conway.Params.law.1 g hg

theorem meansMembers_append {D : Bytes → Option Dbl} (m1 m2 : List (Bytes × Value)) (ms : List (String × J)) :
    MeansMembers D (m1 ++ m2) ms → ∃ a b, ms = a ++ b ∧ MeansMembers D m1 a ∧ MeansMembers D m2 b := by
  induction m1 generalizing ms with
  | nil => intro h; exact ⟨[], ms, rfl, .nil, h⟩
  | cons x m1 ih =>
    intro h
    cases h with
    | cons a b =>
      obtain ⟨p, q, rfl, h1, h2⟩ := ih _ b
      exact ⟨_ :: p, q, rfl, .cons a h1, h2⟩

theorem lookup_absent {l : List (String × J)} {k : String} (h : k ∉ l.map Prod.fst) : l.lookup k = none := by
  induction l with
  | nil => rfl
  | cons p l ih =>
    obtain ⟨k', v⟩ := p
    simp only [List.map_cons, List.mem_cons, not_or] at h
    rw [lookup_if, if_neg h.1, ih h.2]

/-- **C107** Of several members with the same name the last one counts: the document that is read has its meaning there. -/
theorem C107_last_counts {α} (double : Bytes → Option Dbl) (read : J → Out α) (f : Bytes) (m1 m2 : List (Bytes × Value)) (k : String)
    (v : Value) (o : Out α) (hf : Begins f (.obj (m1 ++ (bytesOf k, v) :: m2))) (hk : bytesOf k ∉ m2.map Prod.fst)
    (h : readFile double read (some f) = o) (ho : ∀ e, o ≠ .throw e) :
    ∃ j x, Means double v x ∧ j.get? k = some x ∧ o = read j := by
  simp only [readFile, Option.map_some, first_obj hf, Option.bind_some] at h
  match h2 : tree double (.obj (m1 ++ (bytesOf k, v) :: m2)) with
  | none => rw [h2] at h; exact absurd h.symm (ho _)
  | some j =>
    rw [h2] at h
    cases (tree_iff _ _ _).1 h2 with
    | @obj _ ms l hm hs hl =>
      obtain ⟨a, b, rfl, h1, hb⟩ := meansMembers_append _ _ _ hm
      generalize hkb : bytesOf k = kb at hb
      cases hb with
      | @cons s _ x _ b hx hb =>
        have := bytesOf_inj hkb
        subst this
        refine ⟨_, x, hx, ?_, h.symm⟩
        show List.lookup k l = _
        rw [hl]
        have hn : k ∉ b.map Prod.fst := by
          intro hkm
          rw [meansMembers_names hb] at hk
          obtain ⟨p, hp, hpk⟩ := List.mem_map.1 hkm
          exact hk (List.mem_map.2 ⟨p, hp, by rw [hpk]⟩)
        rw [List.reverse_append, List.reverse_cons, List.append_assoc, List.lookup_append,
          lookup_absent (by rwa [List.map_reverse, List.mem_reverse]), Option.none_or]
        show List.lookup k ((k, x) :: a.reverse) = _
        rw [lookup_if, if_pos rfl]

/-! ### Examples -/

mutual
/-- Equality of values, for the kernel to evaluate. -/
def eqb : Value → Value → Bool
  | .null, .null => true
  | .bool a, .bool b => a == b
  | .num a, .num b => a == b
  | .str a, .str b => a == b
  | .arr a, .arr b => eqbs a b
  | .obj a, .obj b => eqbm a b
  | _, _ => false
/-- Equality of lists. -/
def eqbs : List Value → List Value → Bool
  | [], [] => true
  | a :: l, b :: m => eqb a b && eqbs l m
  | _, _ => false
/-- Equality of members. -/
def eqbm : List (Bytes × Value) → List (Bytes × Value) → Bool
  | [], [] => true
  | (k, a) :: l, (k', b) :: m => k == k' && (eqb a b && eqbm l m)
  | _, _ => false
end

mutual
theorem eqb_sound : ∀ a b, eqb a b = true → a = b
  | .null, b => by cases b <;> simp [eqb]
  | .bool _, b => by cases b <;> simp [eqb]
  | .num _, b => by cases b <;> simp [eqb]
  | .str _, b => by cases b <;> simp [eqb]
  | .arr l, b => by
    cases b with
    | arr m => intro h; rw [eqb] at h; rw [eqbs_sound l m h]
    | _ => simp [eqb]
  | .obj l, b => by
    cases b with
    | obj m => intro h; rw [eqb] at h; rw [eqbm_sound l m h]
    | _ => simp [eqb]
theorem eqbs_sound : ∀ l m, eqbs l m = true → l = m
  | [], [] => fun _ => rfl
  | [], _ :: _ => by simp [eqbs]
  | _ :: _, [] => by simp [eqbs]
  | a :: l, b :: m => by
    intro h
    rw [eqbs, Bool.and_eq_true] at h
    rw [eqb_sound a b h.1, eqbs_sound l m h.2]
theorem eqbm_sound : ∀ l m, eqbm l m = true → l = m
  | [], [] => fun _ => rfl
  | [], _ :: _ => by simp [eqbm]
  | _ :: _, [] => by simp [eqbm]
  | (k, a) :: l, (k', b) :: m => by
    intro h
    rw [eqbm, Bool.and_eq_true, Bool.and_eq_true, beq_iff_eq] at h
    rw [h.1, eqb_sound a b h.2.1, eqbm_sound l m h.2.2]
end

/-- A file begins with this value because the parser says so. -/
theorem begins_by {f : Bytes} {v : Value} (h : (match first f with | some w => eqb w v | none => false) = true) : Begins f v := by
  match h1 : first f with
  | none => simp [h1] at h
  | some w =>
    simp only [h1] at h
    rw [← eqb_sound w v h]
    exact first_sound h1

/-- A text with a byte order mark, escapes, a repeated name and something after the object. -/
def sampleText : Bytes := [0xEF, 0xBB, 0xBF] ++ ascii "\n{ \"b\" : [1, -2,0.5e1] ,\"a\":\"\\u0041\\n\", \"b\":{}}\nrest"

/-- Its value. -/
def sampleValue : List (Bytes × Value) := [(bytesOf "b", .arr [.num (ascii "1"), .num (ascii "-2"), .num (ascii "0.5e1")]),
  (bytesOf "a", .str (bytesOf "A\n")), (bytesOf "b", .obj [])]

example : Begins sampleText (.obj sampleValue) := begins_by (by decide +kernel)

example : Means (fun _ => some (.fin false 5 0)) (.obj sampleValue) (.obj [("a", .str "A\n"), ("b", .obj [])]) :=
  .obj (.cons (.arr (.cons (.nat ⟨by unfold IsDigit; decide, by decide⟩)
    (.cons (.neg ⟨ascii "2", by decide, by unfold IsDigit; decide, by decide⟩)
      (.cons (.real (by unfold IsNat64 IsDigit; decide) (by rintro ⟨ds, h, -⟩; revert h; intro h; cases h) rfl) .nil))))
      (.cons .str (.cons (.obj .nil .nil fun _ => rfl) .nil))) (by decide) (by
        intro k
        simp only [List.reverse_cons, List.reverse_nil, List.nil_append, List.cons_append, lookup_if, List.lookup_nil]
        by_cases h : k = "a"
        · subst h; simp
        · by_cases h' : k = "b" <;> simp [h, h'])

/-- Two layouts of one object. -/
example : Begins (ascii "{\"x\":1,\"y\":\"A\"}") (.obj [(ascii "x", .num (ascii "1")), (ascii "y", .str (ascii "A"))]) ∧
    Begins (ascii " { \"\\u0079\" : \"\\u0041\" , \"x\" : 1 } # comment") (.obj [(ascii "y", .str (ascii "A")), (ascii "x", .num (ascii "1"))]) ∧
    SameUpToOrder (.obj [(ascii "x", .num (ascii "1")), (ascii "y", .str (ascii "A"))])
      (.obj [(ascii "y", .str (ascii "A")), (ascii "x", .num (ascii "1"))]) :=
  ⟨begins_by (by decide +kernel), begins_by (by decide +kernel), .order (.swap _ _ _) (by decide)⟩

/-- A document and a proper beginning of it. -/
example : Val (ascii "{\"x\":1}") (.obj [([120], .num [49])]) ∧ ascii "{\"x\":1" ++ ascii "}" = [] ++ ([] ++ ascii "{\"x\":1}") ∧ ascii "}" ≠ [] := by
  refine ⟨?_, by decide, by decide⟩
  have hn : Num [49] := ⟨[], [49], [], [], rfl, .inl rfl, .inr ⟨49, [], rfl, by unfold IsDigit; decide, by decide, by simp⟩, .inl rfl, .inl rfl⟩
  have hw : Ws [] := by simp [Ws]
  exact .obj (.one (a := []) (k := [120]) (b := []) (c := []) (v := [49]) (d := []) hw (.plain (by unfold IsPlain; decide) .nil) hw hw (.num hn) hw)

end Cardano.Genesis.JsonText
