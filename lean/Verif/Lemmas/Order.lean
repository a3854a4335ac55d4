import Verif.Spec.Ledger
import Mathlib.Tactic.Tauto

/-! Ordered containers: lists kept sorted by a strict total order. -/

namespace Cardano.Ledger

open Cardano.Spec.Ledger

/-- A strict total order given by a Boolean comparison. -/
structure StrictTotal {α} (lt : α → α → Bool) : Prop where
  irrefl : ∀ a, lt a a = false
  trans : ∀ a b c, lt a b = true → lt b c = true → lt a c = true
  total : ∀ a b, lt a b = false → lt b a = false → a = b

theorem StrictTotal.asymm {α} {lt : α → α → Bool} (h : StrictTotal lt) {a b : α}
    (hab : lt a b = true) : lt b a = false := by
  cases hba : lt b a with
  | false => rfl
  | true => have := h.trans _ _ _ hab hba; rw [h.irrefl] at this; simp at this

theorem bytesLt_irrefl : ∀ a, bytesLt a a = false
  | [] => rfl
  | a :: as => by simp [bytesLt, bytesLt_irrefl as]

theorem bytesLt_trans : ∀ a b c, bytesLt a b = true → bytesLt b c = true → bytesLt a c = true
  | [], b, c, h1, h2 => by
    cases c with
    | nil => cases b <;> simp [bytesLt] at h2
    | cons => rfl
  | a :: as, [], c, h1, h2 => by simp [bytesLt] at h1
  | a :: as, b :: bs, [], h1, h2 => by simp [bytesLt] at h2
  | a :: as, b :: bs, c :: cs, h1, h2 => by
    simp only [bytesLt, Bool.or_eq_true, decide_eq_true_eq, Bool.and_eq_true] at *
    rcases h1 with h1 | ⟨rfl, h1⟩
    · rcases h2 with h2 | ⟨rfl, h2⟩
      · left
        rw [UInt8.lt_iff_toNat_lt] at *; omega
      · exact Or.inl h1
    · rcases h2 with h2 | ⟨rfl, h2⟩
      · exact Or.inl h2
      · exact Or.inr ⟨rfl, bytesLt_trans as bs cs h1 h2⟩

theorem bytesLt_total : ∀ a b, bytesLt a b = false → bytesLt b a = false → a = b
  | [], [], _, _ => rfl
  | [], _ :: _, h, _ => by simp [bytesLt] at h
  | _ :: _, [], _, h => by simp [bytesLt] at h
  | a :: as, b :: bs, h1, h2 => by
    simp only [bytesLt, Bool.or_eq_false_iff, decide_eq_false_iff_not, Bool.and_eq_false_iff] at *
    have e : a = b := by
      apply UInt8.toNat_inj.mp
      have := h1.1; have := h2.1
      rw [UInt8.lt_iff_toNat_lt] at *; omega
    subst e
    have e : as = bs := bytesLt_total as bs (by simpa using h1.2) (by simpa using h2.2)
    rw [e]

theorem bytesLt_order : StrictTotal bytesLt := ⟨bytesLt_irrefl, bytesLt_trans, bytesLt_total⟩

theorem txInLt_order : StrictTotal TxIn.lt where
  irrefl a := by simp [TxIn.lt]
  trans a b c := by
    unfold TxIn.lt
    intro h1 h2
    by_cases e1 : a.txId = b.txId
    · by_cases e2 : b.txId = c.txId
      · rw [if_pos e1] at h1; rw [if_pos e2] at h2; rw [if_pos (e1.trans e2)]
        simp only [decide_eq_true_eq] at *; omega
      · rw [if_neg e2] at h2; rw [e1, if_neg e2]; exact h2
    · rw [if_neg e1] at h1
      by_cases e2 : b.txId = c.txId
      · rw [← e2, if_neg e1]; exact h1
      · rw [if_neg e2] at h2
        have := bytesLt_trans _ _ _ h1 h2
        rw [if_neg]; exact this
        intro e; rw [e, bytesLt_irrefl] at this; simp at this
  total a b := by
    unfold TxIn.lt
    intro h1 h2
    by_cases e : a.txId = b.txId
    · rw [if_pos e] at h1; rw [if_pos e.symm] at h2
      cases a; cases b; simp_all; omega
    · rw [if_neg e] at h1; rw [if_neg (Ne.symm e)] at h2
      exact absurd (bytesLt_total _ _ h1 h2) e

section
variable {α : Type} {lt : α → α → Bool} (o : StrictTotal lt)
include o

theorem mem_setInsert (x : α) (l : List α) (y : α) : y ∈ setInsert lt x l ↔ y = x ∨ y ∈ l := by
  induction l with
  | nil => simp [setInsert]
  | cons z zs ih =>
    unfold setInsert
    by_cases h1 : lt x z = true
    · simp [h1]
    · by_cases h2 : lt z x = true
      · rw [if_neg h1, if_pos h2]
        simp only [List.mem_cons, ih]
        constructor <;> (intro h; rcases h with h | h | h <;> simp [h])
      · have e : x = z := o.total _ _ (by simpa using h1) (by simpa using h2)
        subst e; simp [o.irrefl]

theorem setInsert_sorted (x : α) (l : List α) (h : StrictSorted lt l) : StrictSorted lt (setInsert lt x l) := by
  induction l with
  | nil => simp [setInsert, StrictSorted]
  | cons z zs ih =>
    have hz := List.pairwise_cons.mp h
    unfold setInsert
    by_cases h1 : lt x z = true
    · rw [if_pos h1]
      refine List.pairwise_cons.mpr ⟨?_, h⟩
      intro y hy
      rcases List.mem_cons.mp hy with rfl | hy
      · exact h1
      · exact o.trans _ _ _ h1 (hz.1 y hy)
    · rw [if_neg h1]
      by_cases h2 : lt z x = true
      · rw [if_pos h2]
        refine List.pairwise_cons.mpr ⟨?_, ih hz.2⟩
        intro y hy
        rcases (mem_setInsert o x zs y).mp hy with rfl | hy
        · exact h2
        · exact hz.1 y hy
      · rw [if_neg h2]; exact h

/-- A sorted list is determined by its elements. -/
theorem sorted_ext (l m : List α) (hl : StrictSorted lt l) (hm : StrictSorted lt m)
    (h : ∀ x, x ∈ l ↔ x ∈ m) : l = m := by
  induction l generalizing m with
  | nil =>
    cases m with
    | nil => rfl
    | cons y ys => have := (h y).mpr (by simp); simp at this
  | cons x xs ih =>
    cases m with
    | nil => have := (h x).mp (by simp); simp at this
    | cons y ys =>
      have hx := List.pairwise_cons.mp hl
      have hy := List.pairwise_cons.mp hm
      have e : x = y := by
        rcases List.mem_cons.mp ((h x).mp (by simp)) with e | e
        · exact e
        · rcases List.mem_cons.mp ((h y).mpr (by simp)) with e' | e'
          · exact e'.symm
          · have a := hy.1 x e
            have b := hx.1 y e'
            rw [o.asymm a] at b; simp at b
      subst e
      rw [ih ys hx.2 hy.2]
      intro z
      have := h z
      constructor
      · intro hz
        rcases List.mem_cons.mp (this.mp (List.mem_cons_of_mem _ hz)) with rfl | e
        · have := hx.1 z hz; rw [o.irrefl] at this; simp at this
        · exact e
      · intro hz
        rcases List.mem_cons.mp (this.mpr (List.mem_cons_of_mem _ hz)) with rfl | e
        · have := hy.1 z hz; rw [o.irrefl] at this; simp at this
        · exact e

theorem foldl_setInsert (l acc : List α) (ha : StrictSorted lt acc) :
    StrictSorted lt (l.foldl (fun s x => setInsert lt x s) acc) ∧
    ∀ y, y ∈ l.foldl (fun s x => setInsert lt x s) acc ↔ y ∈ acc ∨ y ∈ l := by
  induction l generalizing acc with
  | nil => simp [ha]
  | cons x xs ih =>
    have := ih (setInsert lt x acc) (setInsert_sorted o x acc ha)
    refine ⟨this.1, fun y => ?_⟩
    rw [List.foldl_cons, this.2 y, mem_setInsert o]
    simp only [List.mem_cons]; tauto

/-- Re-inserting the elements of a set gives the set. -/
theorem foldl_setInsert_sorted (l : List α) (h : StrictSorted lt l) :
    l.foldl (fun s x => setInsert lt x s) [] = l := by
  have := foldl_setInsert o l [] List.Pairwise.nil
  exact sorted_ext o _ _ this.1 h (fun y => by rw [this.2]; simp)

theorem sorted_nodup (l : List α) (h : StrictSorted lt l) : l.Nodup := by
  refine List.Pairwise.imp ?_ h
  intro a b hab e
  subst e; rw [o.irrefl] at hab; simp at hab

theorem sorted_foldl (l : List α) : StrictSorted lt (l.foldl (fun s x => setInsert lt x s) []) :=
  (foldl_setInsert o l [] List.Pairwise.nil).1
end

section
variable {κ α : Type} {lt : κ → κ → Bool} (o : StrictTotal lt)
include o

theorem keys_mapAssign (k : κ) (v : α) (l : List (κ × α)) :
    (mapAssign lt k v l).map (·.1) = setInsert lt k (l.map (·.1)) := by
  induction l with
  | nil => rfl
  | cons e es ih =>
    obtain ⟨k', v'⟩ := e
    simp only [mapAssign, List.map_cons, setInsert]
    by_cases h1 : lt k k' = true
    · simp [h1]
    · by_cases h2 : lt k' k = true
      · simp [h1, h2, ih]
      · simp [h1, h2]

/-- After `m[k] = v` the entries are `(k, v)` and those of the other keys. -/
theorem mem_mapAssign (k : κ) (v : α) (l : List (κ × α)) (h : StrictSorted lt (l.map (·.1))) (e : κ × α) :
    e ∈ mapAssign lt k v l ↔ e = (k, v) ∨ (e ∈ l ∧ e.1 ≠ k) := by
  induction l with
  | nil => simp [mapAssign]
  | cons f es ih =>
    obtain ⟨k', v'⟩ := f
    have hz := List.pairwise_cons.mp (show List.Pairwise (fun a b => lt a b = true) (k' :: es.map (·.1)) from h)
    have hgt : ∀ e ∈ es, lt k' e.1 = true := fun e he => hz.1 e.1 (List.mem_map_of_mem he)
    have ne : ∀ a b, lt a b = true → b ≠ a := by
      intro a b hab e; subst e; rw [o.irrefl] at hab; simp at hab
    unfold mapAssign
    by_cases h1 : lt k k' = true
    · rw [if_pos h1]
      simp only [List.mem_cons]
      constructor
      · rintro (rfl | rfl | he)
        · exact Or.inl rfl
        · exact Or.inr ⟨Or.inl rfl, ne _ _ h1⟩
        · exact Or.inr ⟨Or.inr he, ne _ _ (o.trans _ _ _ h1 (hgt e he))⟩
      · rintro (h | ⟨h, _⟩)
        · exact Or.inl h
        · exact Or.inr h
    · rw [if_neg h1]
      by_cases h2 : lt k' k = true
      · rw [if_pos h2, List.mem_cons, ih hz.2, List.mem_cons]
        constructor
        · rintro (rfl | rfl | he)
          · exact Or.inr ⟨Or.inl rfl, (ne _ _ h2).symm⟩
          · exact Or.inl rfl
          · exact Or.inr ⟨Or.inr he.1, he.2⟩
        · rintro (h | ⟨h | h, h'⟩)
          · exact Or.inr (Or.inl h)
          · exact Or.inl h
          · exact Or.inr (Or.inr ⟨h, h'⟩)
      · rw [if_neg h2]
        have e' : k = k' := o.total _ _ (by simpa using h1) (by simpa using h2)
        subst e'
        simp only [List.mem_cons]
        constructor
        · rintro (h | h)
          · exact Or.inl h
          · exact Or.inr ⟨Or.inr h, ne _ _ (hgt e h)⟩
        · rintro (h | ⟨h | h, h'⟩)
          · exact Or.inl h
          · subst h; exact absurd rfl h'
          · exact Or.inr h

theorem mapAssign_sorted (k : κ) (v : α) (l : List (κ × α)) (h : StrictSorted lt (l.map (·.1))) :
    StrictSorted lt ((mapAssign lt k v l).map (·.1)) := by
  rw [keys_mapAssign o]; exact setInsert_sorted o _ _ h

/-- A map is determined by its entries. -/
theorem map_ext (l m : List (κ × α)) (hl : StrictSorted lt (l.map (·.1)))
    (hm : StrictSorted lt (m.map (·.1))) (h : ∀ e, e ∈ l ↔ e ∈ m) : l = m := by
  induction l generalizing m with
  | nil =>
    cases m with
    | nil => rfl
    | cons y ys => have := (h y).mpr (by simp); simp at this
  | cons x xs ih =>
    cases m with
    | nil => have := (h x).mp (by simp); simp at this
    | cons y ys =>
      have hx := List.pairwise_cons.mp (show List.Pairwise (fun a b => lt a b = true) (x.1 :: xs.map (·.1)) from hl)
      have hy := List.pairwise_cons.mp (show List.Pairwise (fun a b => lt a b = true) (y.1 :: ys.map (·.1)) from hm)
      have gx : ∀ e ∈ xs, lt x.1 e.1 = true := fun e he => hx.1 e.1 (List.mem_map_of_mem he)
      have gy : ∀ e ∈ ys, lt y.1 e.1 = true := fun e he => hy.1 e.1 (List.mem_map_of_mem he)
      have e : x = y := by
        rcases List.mem_cons.mp ((h x).mp (by simp)) with e | e
        · exact e
        · rcases List.mem_cons.mp ((h y).mpr (by simp)) with e' | e'
          · exact e'.symm
          · have a := gy x e
            have b := gx y e'
            rw [o.asymm a] at b; simp at b
      subst e
      rw [ih ys hx.2 hy.2]
      intro z
      have := h z
      constructor
      · intro hz
        rcases List.mem_cons.mp (this.mp (List.mem_cons_of_mem _ hz)) with rfl | e
        · have := gx z hz; rw [o.irrefl] at this; simp at this
        · exact e
      · intro hz
        rcases List.mem_cons.mp (this.mpr (List.mem_cons_of_mem _ hz)) with rfl | e
        · have := gy z hz; rw [o.irrefl] at this; simp at this
        · exact e

/-- Appending a larger key. -/
theorem mapAssign_append (k : κ) (v : α) (l : List (κ × α)) (h : ∀ e ∈ l, lt e.1 k = true) :
    mapAssign lt k v l = l ++ [(k, v)] := by
  induction l with
  | nil => rfl
  | cons e es ih =>
    obtain ⟨k', v'⟩ := e
    have h2 := h (k', v') (by simp)
    simp only at h2
    simp only [mapAssign, o.asymm h2, h2, if_true, List.cons_append]
    rw [ih (fun e he => h e (by simp [he]))]
    simp
end

end Cardano.Ledger
