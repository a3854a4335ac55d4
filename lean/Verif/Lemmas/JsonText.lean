import Verif.Model.JsonText

/-! # The parser of `Model/JsonText` and the grammar of `Spec/Json` -/

namespace Cardano.Genesis.JsonText

open Cardano Cardano.Util Cardano.Spec.Json

/-! ## White space -/

theorem isWs_iff (c : UInt8) : (c = 32 || c = 9 || c = 10 || c = 13) = true ↔ IsWs c := by
  simp [IsWs, or_assoc]

theorem skipWs_append {a r : Bytes} (h : Ws a) (hr : ∀ c t, r = c :: t → ¬ IsWs c) : skipWs (a ++ r) = r := by
  induction a with
  | nil =>
    match r with
    | [] => rfl
    | c :: t =>
      show skipWs (c :: t) = _
      rw [skipWs, if_neg (by rw [isWs_iff]; exact hr c t rfl)]
  | cons c a ih =>
    show skipWs (c :: (a ++ r)) = _
    rw [skipWs, if_pos ((isWs_iff c).2 (h c (by simp)))]
    exact ih fun x hx => h x (by simp [hx])

theorem skipWs_cons {a r : Bytes} {c : UInt8} (h : Ws a) (hc : ¬ IsWs c) : skipWs (a ++ c :: r) = c :: r :=
  skipWs_append h (by rintro x t e; cases e; exact hc)

theorem skipWs_sound (x : Bytes) : ∃ a, Ws a ∧ x = a ++ skipWs x ∧ ∀ c t, skipWs x = c :: t → ¬ IsWs c := by
  induction x with
  | nil => exact ⟨[], by simp [Ws], rfl, by simp [skipWs]⟩
  | cons c t ih =>
    rw [skipWs]
    split
    · rename_i h
      obtain ⟨a, ha, e, hn⟩ := ih
      refine ⟨c :: a, ?_, by simp [← e], hn⟩
      intro y hy
      rcases List.mem_cons.1 hy with rfl | hy
      · exact (isWs_iff y).1 h
      · exact ha y hy
    · rename_i h
      refine ⟨[], by simp [Ws], rfl, ?_⟩
      intro x t e
      cases e
      rwa [isWs_iff] at h

/-! ## Numbers -/

theorem digit_iff (c : UInt8) : digit c = true ↔ IsDigit c := by simp [digit, IsDigit]

/-- What may follow a number: nothing that would continue it. -/
def NumEnd (r : Bytes) : Prop := ∀ c t, r = c :: t → ¬ IsDigit c ∧ c ≠ 46 ∧ c ≠ 101 ∧ c ≠ 69

theorem digits_append {ds r : Bytes} (h : ∀ c ∈ ds, IsDigit c) (hr : ∀ c t, r = c :: t → ¬ IsDigit c) :
    digits (ds ++ r) = (ds, r) := by
  induction ds with
  | nil =>
    match r with
    | [] => rfl
    | c :: t =>
      show digits (c :: t) = _
      rw [digits, if_neg (by rw [digit_iff]; exact hr c t rfl)]
  | cons c a ih =>
    show digits (c :: (a ++ r)) = _
    rw [digits, if_pos ((digit_iff c).2 (h c (by simp))), ih fun x hx => h x (by simp [hx])]

theorem digits_sound (x : Bytes) : x = (digits x).1 ++ (digits x).2 ∧ (∀ c ∈ (digits x).1, IsDigit c) := by
  induction x with
  | nil => simp [digits]
  | cons c t ih =>
    rw [digits]
    split
    · rename_i h
      refine ⟨by simp [← ih.1], ?_⟩
      intro y hy
      rcases List.mem_cons.1 hy with rfl | hy
      · exact (digit_iff y).1 h
      · exact ih.2 y hy
    · simp

theorem digits1_append {d : UInt8} {ds r : Bytes} (h : ∀ c ∈ d :: ds, IsDigit c) (hr : ∀ c t, r = c :: t → ¬ IsDigit c) :
    digits1 (d :: (ds ++ r)) = some (d :: ds, r) := by
  have := digits_append h hr
  simp only [List.cons_append] at this
  simp only [digits1, this]

theorem digits1_sound {x p r : Bytes} (h : digits1 x = some (p, r)) :
    ∃ d ds, p = d :: ds ∧ x = d :: (ds ++ r) ∧ ∀ c ∈ d :: ds, IsDigit c := by
  have hs := digits_sound x
  revert h hs
  unfold digits1
  rcases digits x with ⟨_ | ⟨d, ds⟩, r'⟩
  · simp
  · intro h hs
    simp only [Option.some.injEq, Prod.mk.injEq] at h
    obtain ⟨rfl, rfl⟩ := h
    exact ⟨d, ds, rfl, by simpa using hs.1, hs.2⟩

theorem number_complete {b r : Bytes} (h : Num b) (hr : NumEnd r) : number (b ++ r) = some (b, r) := by
  obtain ⟨sign, int, frac, exp, rfl, hs, hi, hf, he⟩ := h
  have nd : ∀ c : UInt8, c = 46 ∨ c = 101 ∨ c = 69 → ¬ IsDigit c := by
    rintro c (rfl | rfl | rfl) <;> unfold IsDigit <;> decide
  have er : ∀ c t, exp ++ r = c :: t → ¬ IsDigit c ∧ c ≠ 46 := by
    rcases he with rfl | ⟨e, sg, d, ds, rfl, h, -, -⟩
    · intro c t e; exact ⟨(hr c t e).1, (hr c t e).2.1⟩
    · intro c t e'; simp only [List.cons_append, List.cons.injEq] at e'
      obtain ⟨rfl, -⟩ := e'
      refine ⟨nd _ (.inr h), ?_⟩
      rcases h with rfl | rfl <;> decide
  have fr : ∀ c t, frac ++ (exp ++ r) = c :: t → ¬ IsDigit c := by
    rcases hf with rfl | ⟨d, ds, rfl, -⟩
    · intro c t e; exact (er c t e).1
    · intro c t e; simp only [List.cons_append, List.cons.injEq] at e
      exact nd _ (.inl e.1.symm)
  have h1 : minus (sign ++ (int ++ (frac ++ exp)) ++ r) = (sign, int ++ (frac ++ (exp ++ r))) := by
    rcases hs with rfl | rfl
    · rcases hi with rfl | ⟨d, ds, rfl, hd, -, -⟩
      · simp [minus]
      · have : d ≠ 45 := by rintro rfl; revert hd; unfold IsDigit; decide
        simp [minus, this]
    · simp [minus]
  have h2 : intPart (int ++ (frac ++ (exp ++ r))) = some (int, frac ++ (exp ++ r)) := by
    rcases hi with rfl | ⟨d, ds, rfl, hd, h0, hds⟩
    · simp [intPart]
    · simp only [List.cons_append, intPart, if_neg h0, (digit_iff d).2 hd, if_true, digits_append hds fr]
  have h3 : fracPart (frac ++ (exp ++ r)) = some (frac, exp ++ r) := by
    rcases hf with rfl | ⟨d, ds, rfl, hds⟩
    · show fracPart (exp ++ r) = _
      generalize hx : exp ++ r = x at er
      match x with
      | [] => simp [fracPart]
      | c :: t => simp [fracPart, (er c t rfl).2]
    · simp only [List.cons_append, fracPart, if_true, digits1_append hds fun c t e => (er c t e).1, Option.map_some]
  have h4 : expPart (exp ++ r) = some (exp, r) := by
    rcases he with rfl | ⟨e, sg, d, ds, rfl, he, hsg, hds⟩
    · match r with
      | [] => rfl
      | c :: t =>
        have := hr c t rfl
        simp [expPart, this.2.2]
    · have hd : d ≠ 43 ∧ d ≠ 45 := by
        have := hds d (by simp)
        constructor <;> (rintro rfl; revert this; unfold IsDigit; decide)
      have hs : expSign (sg ++ (d :: (ds ++ r))) = (sg, d :: (ds ++ r)) := by
        rcases hsg with rfl | rfl | rfl
        · simp [expSign, hd]
        · simp [expSign]
        · simp [expSign]
      have he' : (e = 101 || e = 69) = true := by simpa using he
      simp only [List.cons_append, List.append_assoc, expPart, he', if_true, hs, digits1_append hds fun c t e => (hr c t e).1,
        Option.map_some]
  simp only [number, h1, Option.bind_eq_bind, Option.bind_some, h2, h3, h4, Option.pure_def]

theorem number_sound {x b r : Bytes} (h : number x = some (b, r)) : x = b ++ r ∧ Num b := by
  simp only [number, Option.bind_eq_bind, Option.bind_eq_some_iff, Option.pure_def, Option.some.injEq, Prod.mk.injEq] at h
  obtain ⟨⟨int, x1⟩, h2, ⟨frac, x2⟩, h3, ⟨exp, x3⟩, h4, rfl, rfl⟩ := h
  have h1 : x = (minus x).1 ++ (minus x).2 ∧ ((minus x).1 = [] ∨ (minus x).1 = [45]) := by
    match x with
    | [] => simp [minus]
    | c :: t => rw [minus]; split <;> simp_all
  generalize (minus x).1 = sign at h1
  generalize (minus x).2 = y at h1 h2
  obtain ⟨rfl, hs⟩ := h1
  have hi : y = int ++ x1 ∧ (int = [48] ∨ ∃ d ds, int = d :: ds ∧ IsDigit d ∧ d ≠ 48 ∧ ∀ c ∈ ds, IsDigit c) := by
    match y with
    | [] => simp [intPart] at h2
    | c :: t =>
      rw [intPart] at h2
      split at h2
      · rename_i hc
        simp only [Option.some.injEq, Prod.mk.injEq] at h2
        obtain ⟨rfl, rfl⟩ := h2
        exact ⟨by simp [hc], .inl rfl⟩
      · split at h2
        · rename_i n d
          simp only [Option.some.injEq, Prod.mk.injEq] at h2
          obtain ⟨rfl, rfl⟩ := h2
          have := digits_sound t
          refine ⟨by rw [List.cons_append, ← this.1], .inr ⟨c, _, rfl, (digit_iff c).1 d, n, this.2⟩⟩
        · simp at h2
  obtain ⟨rfl, hi⟩ := hi
  have hf : x1 = frac ++ x2 ∧ (frac = [] ∨ ∃ d ds, frac = 46 :: d :: ds ∧ ∀ c ∈ d :: ds, IsDigit c) := by
    match x1 with
    | [] => simp_all [fracPart]
    | c :: t =>
      simp only [fracPart] at h3
      split at h3
      · rename_i hc
        simp only [Option.map_eq_some_iff, Prod.mk.injEq] at h3
        obtain ⟨⟨p, q⟩, hp, rfl, rfl⟩ := h3
        obtain ⟨d, ds, rfl, rfl, hd⟩ := digits1_sound hp
        exact ⟨by simp [hc], .inr ⟨d, ds, rfl, hd⟩⟩
      · simp only [Option.some.injEq, Prod.mk.injEq] at h3
        obtain ⟨rfl, rfl⟩ := h3
        simp
  obtain ⟨rfl, hf⟩ := hf
  have he : x2 = exp ++ x3 ∧ (exp = [] ∨ ∃ e sg d ds, exp = e :: (sg ++ d :: ds) ∧ (e = 101 ∨ e = 69) ∧
      (sg = [] ∨ sg = [43] ∨ sg = [45]) ∧ ∀ c ∈ d :: ds, IsDigit c) := by
    match x2 with
    | [] => simp_all [expPart]
    | c :: t =>
      simp only [expPart] at h4
      split at h4
      · rename_i hc
        simp only [Option.map_eq_some_iff, Prod.mk.injEq] at h4
        obtain ⟨⟨p, q⟩, hp, rfl, rfl⟩ := h4
        obtain ⟨d, ds, rfl, e, hd⟩ := digits1_sound hp
        have hsg : t = (expSign t).1 ++ (expSign t).2 ∧ ((expSign t).1 = [] ∨ (expSign t).1 = [43] ∨ (expSign t).1 = [45]) := by
          match t with
          | [] => simp [expSign]
          | y :: t => rw [expSign]; split <;> simp_all
        rw [e] at hsg
        generalize (expSign t).1 = sg at hsg
        exact ⟨by simp [hsg.1], .inr ⟨c, sg, d, ds, rfl, by simpa using hc, hsg.2, hd⟩⟩
      · simp only [Option.some.injEq, Prod.mk.injEq] at h4
        obtain ⟨rfl, rfl⟩ := h4
        simp
  obtain ⟨rfl, he⟩ := he
  exact ⟨by simp, sign, int, frac, exp, rfl, hs, hi, hf, he⟩

/-! ## Strings -/

theorem hex4_append {h : Bytes} {n : Nat} (hh : Hex4 h n) (r : Bytes) : hex4 (h ++ r) = some (n, r) := by
  obtain ⟨a, b, c, d, x, y, z, w, rfl, h1, h2, h3, h4, rfl⟩ := hh
  simp [hex4, h1, h2, h3, h4]

theorem hex4_sound {x r : Bytes} {n : Nat} (h : hex4 x = some (n, r)) : ∃ b, x = b ++ r ∧ Hex4 b n := by
  match x with
  | a :: b :: c :: d :: t =>
    simp only [hex4, Option.bind_eq_bind, Option.bind_eq_some_iff, Option.pure_def, Option.some.injEq, Prod.mk.injEq] at h
    obtain ⟨x, h1, y, h2, z, h3, w, h4, rfl, rfl⟩ := h
    exact ⟨[a, b, c, d], rfl, a, b, c, d, x, y, z, w, rfl, h1, h2, h3, h4, rfl⟩
  | [] | [_] | [_, _] | [_, _, _] => simp [hex4] at h

theorem escapes_lookup {e x : UInt8} (h : (e, x) ∈ escapes) : e ≠ 117 ∧ escapes.lookup e = some x := by
  simp only [escapes, List.mem_cons, Prod.mk.injEq, List.not_mem_nil, or_false] at h
  rcases h with ⟨rfl, rfl⟩ | ⟨rfl, rfl⟩ | ⟨rfl, rfl⟩ | ⟨rfl, rfl⟩ | ⟨rfl, rfl⟩ | ⟨rfl, rfl⟩ | ⟨rfl, rfl⟩ | ⟨rfl, rfl⟩ <;> decide

theorem lookup_mem {l : List (UInt8 × UInt8)} {e x : UInt8} (h : l.lookup e = some x) : (e, x) ∈ l := by
  induction l with
  | nil => simp at h
  | cons p l ih =>
    obtain ⟨k, y⟩ := p
    rw [List.lookup_cons] at h
    split at h
    · rename_i hk
      have : e = k := by simpa using hk
      cases h; subst this; simp
    · exact List.mem_cons_of_mem _ (ih h)

theorem string_complete {k s : Bytes} (h : Str k s) (r : Bytes) : ∀ n, k.length < n → string n (k ++ 34 :: r) = some (s, r) := by
  induction h with
  | nil =>
    intro n hn
    match n with
    | n + 1 => simp [string]
  | @plain c t s hc _ ih =>
    intro n hn
    match n with
    | n + 1 =>
      have : ¬ c < 32 := by
        have := hc.1
        rw [UInt8.lt_iff_toNat_lt]; rw [UInt8.le_iff_toNat_le] at this; omega
      simp only [List.cons_append, string, if_neg hc.2.1, if_neg hc.2.2, if_neg this, ih n (by simpa using hn), Option.map_some]
  | @esc e x t s he _ ih =>
    intro n hn
    match n with
    | n + 1 =>
      have hl := escapes_lookup he
      simp only [List.length_cons] at hn
      have h34 : (92 : UInt8) ≠ 34 := by decide
      simp only [List.cons_append, string, if_neg h34, if_true, escape, if_neg hl.1, hl.2, Option.map_some, ih n (by omega),
        List.nil_append]
  | @unicode h m t s hh hm _ ih =>
    intro n hn
    match n with
    | n + 1 =>
      simp only [List.length_cons, List.length_append] at hn
      have h34 : (92 : UInt8) ≠ 34 := by decide
      have c1 : (0xD800 ≤ m && m < 0xDC00) = false := by simp; omega
      have c2 : (0xDC00 ≤ m && m < 0xE000) = false := by simp; omega
      simp only [List.cons_append, List.append_assoc, string, if_neg h34, if_true, escape, hex4_append hh, c1, c2,
        Option.map_some, ih n (by omega), Bool.false_eq_true, if_false]
  | @pair h l hi lo t s hh hl a b c d _ ih =>
    intro n hn
    match n with
    | n + 1 =>
      simp only [List.length_cons, List.length_append] at hn
      have h34 : (92 : UInt8) ≠ 34 := by decide
      have c1 : (0xD800 ≤ hi && hi < 0xDC00) = true := by simp; omega
      have c2 : (0xDC00 ≤ lo && lo < 0xE000) = true := by simp; omega
      simp only [List.cons_append, List.append_assoc, string, if_neg h34, if_true, escape, hex4_append hh, hex4_append hl, c1, c2,
        Option.map_some, ih n (by omega), lowHalf, decide_true, Bool.and_self]

theorem string_sound {x s r : Bytes} : ∀ n, string n x = some (s, r) → ∃ k, x = k ++ 34 :: r ∧ Str k s := by
  intro n
  induction n generalizing x s r with
  | zero => simp [string]
  | succ n ih =>
    intro h
    match x with
    | [] => simp [string] at h
    | c :: t =>
      rw [string] at h
      split at h
      · rename_i hc
        simp only [Option.some.injEq, Prod.mk.injEq] at h
        obtain ⟨rfl, rfl⟩ := h
        exact ⟨[], by simp [hc], .nil⟩
      · rename_i h34
        split at h
        · rename_i h92
          subst h92
          match t with
          | [] => simp [escape] at h
          | e :: t =>
            rw [escape] at h
            by_cases h117 : e = 117
            · subst h117
              rw [if_pos rfl] at h
              match h4 : hex4 t with
              | none => simp [h4] at h
              | some (m, t') =>
                obtain ⟨b, rfl, hb⟩ := hex4_sound h4
                simp only [h4] at h
                by_cases c1 : (0xD800 ≤ m && m < 0xDC00) = true
                · simp only [c1, if_true] at h
                  match hlo : lowHalf t' with
                  | none => simp [hlo] at h
                  | some (lo, t'') =>
                    simp only [hlo, Option.map_some, Option.map_eq_some_iff, Prod.mk.injEq] at h
                    obtain ⟨⟨s', r'⟩, hs, rfl, rfl⟩ := h
                    obtain ⟨k, rfl, hk⟩ := ih hs
                    match t' with
                    | [] | [_] => simp [lowHalf] at hlo
                    | p :: q :: t' =>
                      rw [lowHalf] at hlo
                      split at hlo
                      · rename_i hpq
                        simp only [Bool.and_eq_true, decide_eq_true_eq] at hpq
                        obtain ⟨rfl, rfl⟩ := hpq
                        match h5 : hex4 t' with
                        | none => simp [h5] at hlo
                        | some (lo', u) =>
                          simp only [h5] at hlo
                          split at hlo
                          · rename_i c2
                            simp only [Option.some.injEq, Prod.mk.injEq] at hlo
                            obtain ⟨rfl, rfl⟩ := hlo
                            obtain ⟨b', rfl, hb'⟩ := hex4_sound h5
                            simp only [Bool.and_eq_true, decide_eq_true_eq] at c1 c2
                            exact ⟨92 :: 117 :: (b ++ 92 :: 117 :: (b' ++ k)), by simp,
                              .pair hb hb' c1.1 c1.2 c2.1 c2.2 hk⟩
                          · simp at hlo
                      · simp at hlo
                · rw [if_neg c1] at h
                  by_cases c2 : (0xDC00 ≤ m && m < 0xE000) = true
                  · simp [c2] at h
                  · rw [if_neg c2] at h
                    simp only [Option.map_eq_some_iff, Prod.mk.injEq] at h
                    obtain ⟨⟨s', r'⟩, hs, rfl, rfl⟩ := h
                    obtain ⟨k, rfl, hk⟩ := ih hs
                    simp only [Bool.and_eq_true, decide_eq_true_eq, not_and] at c1 c2
                    exact ⟨92 :: 117 :: (b ++ k), by simp, .unicode hb (by omega) hk⟩
            · rw [if_neg h117] at h
              match hl : escapes.lookup e with
              | none => simp [hl] at h
              | some y =>
                simp only [hl, Option.map_some, Option.map_eq_some_iff, Prod.mk.injEq] at h
                obtain ⟨⟨s', r'⟩, hs, rfl, rfl⟩ := h
                obtain ⟨k, rfl, hk⟩ := ih hs
                exact ⟨92 :: e :: k, by simp, .esc (lookup_mem hl) hk⟩
        · rename_i h92
          split at h
          · simp at h
          · rename_i h32
            simp only [Option.map_eq_some_iff, Prod.mk.injEq] at h
            obtain ⟨⟨s', r'⟩, hs, rfl, rfl⟩ := h
            obtain ⟨k, rfl, hk⟩ := ih hs
            refine ⟨c :: k, by simp, .plain ⟨?_, h34, h92⟩ hk⟩
            rw [UInt8.le_iff_toNat_le]; rw [UInt8.lt_iff_toNat_lt] at h32; omega

/-! ## Values -/

theorem num_start {b : Bytes} (h : Num b) : ∃ c t, b = c :: t ∧ (c = 45 ∨ IsDigit c) := by
  obtain ⟨sign, int, frac, exp, rfl, hs, hi, -, -⟩ := h
  rcases hs with rfl | rfl
  · rcases hi with rfl | ⟨d, ds, rfl, hd, -, -⟩
    · exact ⟨48, _, rfl, .inr (by unfold IsDigit; decide)⟩
    · exact ⟨d, _, rfl, .inr hd⟩
  · exact ⟨45, _, rfl, .inl rfl⟩

/-- A byte that can begin a value. -/
def Start (c : UInt8) : Prop := ¬ IsWs c ∧ c ≠ 93 ∧ c ≠ 125 ∧ c ≠ 0xEF

theorem num_byte {c : UInt8} (h : c = 45 ∨ IsDigit c) :
    Start c ∧ c ≠ 123 ∧ c ≠ 91 ∧ c ≠ 34 ∧ c ≠ 110 ∧ c ≠ 102 ∧ c ≠ 116 := by
  unfold IsDigit at h
  unfold Start IsWs
  refine ⟨⟨?_, ?_, ?_, ?_⟩, ?_, ?_, ?_, ?_, ?_, ?_⟩
  · rintro (rfl | rfl | rfl | rfl) <;> revert h <;> decide
  all_goals (rintro rfl; revert h; decide)

theorem val_start {b : Bytes} {v : Value} (h : Val b v) : ∃ c t, b = c :: t ∧ Start c := by
  cases h with
  | num h =>
    obtain ⟨c, t, rfl, hc⟩ := num_start h
    exact ⟨c, t, rfl, (num_byte hc).1⟩
  | _ => exact ⟨_, _, rfl, by unfold Start IsWs; decide⟩

theorem elems_start {b : Bytes} {l : List Value} (h : Elems b l) : ∃ a c t, b = a ++ c :: t ∧ Ws a ∧ Start c := by
  cases h with
  | one ha hv _ =>
    obtain ⟨c, t, rfl, hc⟩ := val_start hv
    exact ⟨_, c, _, by simp only [List.cons_append]; rfl, ha, hc⟩
  | cons ha hv _ _ =>
    obtain ⟨c, t, rfl, hc⟩ := val_start hv
    exact ⟨_, c, _, by simp only [List.cons_append]; rfl, ha, hc⟩

theorem members_start {b : Bytes} {m : List (Bytes × Value)} (h : Members b m) : ∃ a t, b = a ++ 34 :: t ∧ Ws a := by
  cases h with
  | one ha _ _ _ _ _ => exact ⟨_, _, rfl, ha⟩
  | cons ha _ _ _ _ _ _ => exact ⟨_, _, rfl, ha⟩

theorem skipWs_idem (x : Bytes) : skipWs (skipWs x) = skipWs x := by
  obtain ⟨a, ha, e, h⟩ := skipWs_sound x
  exact skipWs_append (a := []) (by simp [Ws]) h

theorem elems_skip (n : Nat) (x : Bytes) : elems n (skipWs x) = elems n x := by
  cases n with
  | zero => simp [elems]
  | succ n => rw [elems, elems, skipWs_idem]

theorem members_skip (n : Nat) (x : Bytes) : members n (skipWs x) = members n x := by
  cases n with
  | zero => simp [members]
  | succ n => rw [members, members, skipWs_idem]

theorem skip_val {a v r : Bytes} {val : Value} (ha : Ws a) (hv : Val v val) : skipWs (a ++ (v ++ r)) = v ++ r := by
  obtain ⟨c, t, rfl, hc⟩ := val_start hv
  exact skipWs_cons ha hc.1

theorem notWs_of (c : UInt8) (h : c = 34 ∨ c = 44 ∨ c = 58 ∨ c = 93 ∨ c = 125) : ¬ IsWs c := by
  rcases h with rfl | rfl | rfl | rfl | rfl <;> unfold IsWs <;> decide

theorem numEnd_ws {d r : Bytes} {c : UInt8} (hd : Ws d) (hc : c = 44 ∨ c = 93 ∨ c = 125) : NumEnd (d ++ c :: r) := by
  intro x t e
  have hx : IsWs x ∨ x = 44 ∨ x = 93 ∨ x = 125 := by
    match d with
    | [] => simp only [List.nil_append, List.cons.injEq] at e; rw [← e.1]; exact .inr hc
    | y :: d => simp only [List.cons_append, List.cons.injEq] at e; rw [← e.1]; exact .inl (hd y (by simp))
  unfold IsWs at hx
  unfold IsDigit
  rcases hx with (rfl | rfl | rfl | rfl) | rfl | rfl | rfl <;> decide

theorem string_all {k s : Bytes} (h : Str k s) (r : Bytes) :
    string ((k ++ 34 :: r).length + 1) (k ++ 34 :: r) = some (s, r) :=
  string_complete h r _ (by simp only [List.length_append, List.length_cons]; omega)

theorem value_complete {b : Bytes} {v : Value} (h : Val b v) :
    ∀ n r, 2 * b.length < n → ((∃ t, v = .num t) → NumEnd r) → value n (b ++ r) = some (v, r) := by
  refine Val.rec
    (motive_1 := fun b v _ => ∀ n r, 2 * b.length < n → ((∃ t, v = .num t) → NumEnd r) → value n (b ++ r) = some (v, r))
    (motive_2 := fun b l _ => ∀ n r, 2 * b.length + 1 < n → elems n (b ++ 93 :: r) = some (l, r))
    (motive_3 := fun b m _ => ∀ n r, 2 * b.length + 1 < n → members n (b ++ 125 :: r) = some (m, r))
    ?null ?fals ?tru ?num ?str ?noE ?arr ?noM ?obj ?eone ?econs ?mone ?mcons h
  case null | fals | tru =>
    intro n r hn _
    match n with
    | n + 1 => simp [value, literal]
  case num =>
    intro b hb n r hn hr
    obtain ⟨c, t, rfl, hc⟩ := num_start hb
    have k := (num_byte hc).2
    match n with
    | n + 1 =>
      have := number_complete hb (hr ⟨_, rfl⟩)
      simp only [List.cons_append] at this
      simp only [List.cons_append, value, if_neg k.1, if_neg k.2.1, if_neg k.2.2.1, if_neg k.2.2.2.1, if_neg k.2.2.2.2.1,
        if_neg k.2.2.2.2.2, this, Option.map_some]
  case str =>
    intro k s hs n r hn _
    match n with
    | n + 1 =>
      have e : 34 :: (k ++ [34]) ++ r = 34 :: (k ++ 34 :: r) := by simp
      rw [e]
      have c1 : (34 : UInt8) ≠ 123 := by decide
      have c2 : (34 : UInt8) ≠ 91 := by decide
      simp only [value, if_neg c1, if_neg c2, if_true, string_all hs, Option.map_some]
  case noE =>
    intro w hw n r hn _
    match n with
    | n + 1 =>
      have e : 91 :: (w ++ [93]) ++ r = 91 :: (w ++ 93 :: r) := by simp
      rw [e]
      have c1 : (91 : UInt8) ≠ 123 := by decide
      simp only [value, if_neg c1, if_true, skipWs_cons hw (notWs_of 93 (by simp))]
  case arr =>
    intro b l hb ih n r hn _
    match n with
    | n + 1 =>
      have e : 91 :: (b ++ [93]) ++ r = 91 :: (b ++ 93 :: r) := by simp
      rw [e]
      simp only [List.length_cons, List.length_append, List.length_nil] at hn
      have hx := ih n r (by omega)
      obtain ⟨a, c, t, rfl, ha, hc⟩ := elems_start hb
      have hsk : skipWs (a ++ c :: t ++ 93 :: r) = c :: (t ++ 93 :: r) := by
        rw [List.append_assoc]; exact skipWs_cons ha hc.1
      rw [← elems_skip, hsk] at hx
      have c1 : (91 : UInt8) ≠ 123 := by decide
      simp only [value, if_neg c1, if_true, hsk, if_neg hc.2.1, hx, Option.map_some]
  case noM =>
    intro w hw n r hn _
    match n with
    | n + 1 =>
      have e : 123 :: (w ++ [125]) ++ r = 123 :: (w ++ 125 :: r) := by simp
      rw [e]
      simp only [value, if_true, skipWs_cons hw (notWs_of 125 (by simp))]
  case obj =>
    intro b m hb ih n r hn _
    match n with
    | n + 1 =>
      have e : 123 :: (b ++ [125]) ++ r = 123 :: (b ++ 125 :: r) := by simp
      rw [e]
      simp only [List.length_cons, List.length_append, List.length_nil] at hn
      have hx := ih n r (by omega)
      obtain ⟨a, t, rfl, ha⟩ := members_start hb
      have hsk : skipWs (a ++ 34 :: t ++ 125 :: r) = 34 :: (t ++ 125 :: r) := by
        rw [List.append_assoc]; exact skipWs_cons ha (notWs_of 34 (by simp))
      rw [← members_skip, hsk] at hx
      have c1 : (34 : UInt8) ≠ 125 := by decide
      simp only [value, if_true, hsk, if_neg c1, hx, Option.map_some]
  case eone =>
    intro a v d val ha hv hd ih n r hn
    match n with
    | n + 1 =>
      simp only [List.length_append] at hn
      have e : a ++ (v ++ d) ++ 93 :: r = a ++ (v ++ (d ++ 93 :: r)) := by simp
      rw [e, elems, skip_val ha hv, ih n _ (by omega) fun _ => numEnd_ws hd (by simp)]
      simp only [skipWs_cons hd (notWs_of 93 (by simp)), if_true]
  case econs =>
    intro a v d val b l ha hv hd hb ih ihb n r hn
    match n with
    | n + 1 =>
      simp only [List.length_append, List.length_cons] at hn
      have e : a ++ (v ++ (d ++ 44 :: b)) ++ 93 :: r = a ++ (v ++ (d ++ 44 :: (b ++ 93 :: r))) := by simp
      rw [e, elems, skip_val ha hv, ih n _ (by omega) fun _ => numEnd_ws hd (by simp)]
      have c1 : (44 : UInt8) ≠ 93 := by decide
      simp only [skipWs_cons hd (notWs_of 44 (by simp)), if_true, if_neg c1, ihb n r (by omega), Option.map_some]
  case mone =>
    intro a k key b c v val d ha hk hb hc hv hd ih n r hn
    match n with
    | n + 1 =>
      simp only [List.length_append, List.length_cons] at hn
      have e : a ++ 34 :: (k ++ 34 :: (b ++ 58 :: (c ++ (v ++ d)))) ++ 125 :: r =
          a ++ 34 :: (k ++ 34 :: (b ++ 58 :: (c ++ (v ++ (d ++ 125 :: r))))) := by simp
      have hx := ih n (d ++ 125 :: r) (by omega) fun _ => numEnd_ws hd (by simp)
      rw [e, members, skipWs_cons ha (notWs_of 34 (by simp))]
      simp only [if_true, string_all hk, skipWs_cons hb (notWs_of 58 (by simp)),
        skip_val hc hv, hx, skipWs_cons hd (notWs_of 125 (by simp))]
  case mcons =>
    intro a k key b c v val d q m ha hk hb hc hv hd hq ih ihq n r hn
    match n with
    | n + 1 =>
      simp only [List.length_append, List.length_cons] at hn
      have e : a ++ 34 :: (k ++ 34 :: (b ++ 58 :: (c ++ (v ++ (d ++ 44 :: q))))) ++ 125 :: r =
          a ++ 34 :: (k ++ 34 :: (b ++ 58 :: (c ++ (v ++ (d ++ 44 :: (q ++ 125 :: r)))))) := by simp
      have hx := ih n (d ++ 44 :: (q ++ 125 :: r)) (by omega) fun _ => numEnd_ws hd (by simp)
      have c1 : (44 : UInt8) ≠ 125 := by decide
      rw [e, members, skipWs_cons ha (notWs_of 34 (by simp))]
      simp only [if_true, string_all hk, skipWs_cons hb (notWs_of 58 (by simp)),
        skip_val hc hv, hx, skipWs_cons hd (notWs_of 44 (by simp)), if_neg c1,
        ihq n r (by omega), Option.map_some]

theorem literal_sound {name x r : Bytes} {v w : Value} (h : literal name v x = some (w, r)) : x = name ++ r ∧ w = v := by
  unfold literal at h
  split at h
  · rename_i e
    simp only [Option.some.injEq, Prod.mk.injEq] at h
    obtain ⟨rfl, rfl⟩ := h
    exact ⟨by conv_lhs => rw [← List.take_append_drop name.length x, e], rfl⟩
  · simp at h

theorem sound : ∀ n,
    (∀ x v r, value n x = some (v, r) → ∃ b, x = b ++ r ∧ Val b v) ∧
    (∀ x l r, elems n x = some (l, r) → ∃ b, x = b ++ 93 :: r ∧ Elems b l) ∧
    (∀ x m r, members n x = some (m, r) → ∃ b, x = b ++ 125 :: r ∧ Members b m) := by
  intro n
  induction n with
  | zero => simp [value, elems, members]
  | succ n ih =>
    obtain ⟨ihv, ihe, ihm⟩ := ih
    refine ⟨?_, ?_, ?_⟩
    · intro x v r h
      match x with
      | [] => simp [value] at h
      | c :: t =>
        rw [value] at h
        split at h
        · rename_i hc
          subst hc
          obtain ⟨a, ha, e, -⟩ := skipWs_sound t
          split at h
          · simp at h
          · rename_i d q hs
            rw [hs] at e
            split at h
            · rename_i hd
              simp only [Option.some.injEq, Prod.mk.injEq] at h
              obtain ⟨rfl, rfl⟩ := h
              exact ⟨123 :: (a ++ [125]), by simp [e, hd], .noMembers ha⟩
            · simp only [Option.map_eq_some_iff, Prod.mk.injEq] at h
              obtain ⟨⟨m, r'⟩, hm, rfl, rfl⟩ := h
              rw [← hs, members_skip] at hm
              obtain ⟨b, rfl, hb⟩ := ihm _ _ _ hm
              exact ⟨123 :: (b ++ [125]), by simp, .obj hb⟩
        split at h
        · rename_i hc
          subst hc
          obtain ⟨a, ha, e, -⟩ := skipWs_sound t
          split at h
          · simp at h
          · rename_i d q hs
            rw [hs] at e
            split at h
            · rename_i hd
              simp only [Option.some.injEq, Prod.mk.injEq] at h
              obtain ⟨rfl, rfl⟩ := h
              exact ⟨91 :: (a ++ [93]), by simp [e, hd], .noElems ha⟩
            · simp only [Option.map_eq_some_iff, Prod.mk.injEq] at h
              obtain ⟨⟨m, r'⟩, hm, rfl, rfl⟩ := h
              rw [← hs, elems_skip] at hm
              obtain ⟨b, rfl, hb⟩ := ihe _ _ _ hm
              exact ⟨91 :: (b ++ [93]), by simp, .arr hb⟩
        split at h
        · rename_i hc
          subst hc
          simp only [Option.map_eq_some_iff, Prod.mk.injEq] at h
          obtain ⟨⟨s, r'⟩, hs, rfl, rfl⟩ := h
          obtain ⟨k, rfl, hk⟩ := string_sound _ hs
          exact ⟨34 :: (k ++ [34]), by simp, .str hk⟩
        split at h
        · obtain ⟨e, rfl⟩ := literal_sound h
          exact ⟨_, e, .null⟩
        split at h
        · obtain ⟨e, rfl⟩ := literal_sound h
          exact ⟨_, e, .false⟩
        split at h
        · obtain ⟨e, rfl⟩ := literal_sound h
          exact ⟨_, e, .true⟩
        simp only [Option.map_eq_some_iff, Prod.mk.injEq] at h
        obtain ⟨⟨b, r'⟩, hs, rfl, rfl⟩ := h
        obtain ⟨e, hb⟩ := number_sound hs
        exact ⟨b, e, .num hb⟩
    · intro x l r h
      rw [elems] at h
      obtain ⟨a, ha, e, -⟩ := skipWs_sound x
      split at h
      · simp at h
      · rename_i v q hv
        obtain ⟨b, eb, hb⟩ := ihv _ _ _ hv
        obtain ⟨d, hd, ed, -⟩ := skipWs_sound q
        split at h
        · simp at h
        · rename_i c q' hs
          rw [hs] at ed
          split at h
          · rename_i hc
            simp only [Option.some.injEq, Prod.mk.injEq] at h
            obtain ⟨rfl, rfl⟩ := h
            exact ⟨a ++ (b ++ d), by rw [e, eb, ed, hc]; simp, .one ha hb hd⟩
          · split at h
            · rename_i hc
              simp only [Option.map_eq_some_iff, Prod.mk.injEq] at h
              obtain ⟨⟨l', r'⟩, hl, rfl, rfl⟩ := h
              obtain ⟨b', rfl, hb'⟩ := ihe _ _ _ hl
              exact ⟨a ++ (b ++ (d ++ 44 :: b')), by rw [e, eb, ed, hc]; simp, .cons ha hb hd hb'⟩
            · simp at h
    · intro x m r h
      rw [members] at h
      obtain ⟨a, ha, e, -⟩ := skipWs_sound x
      split at h
      · simp at h
      · rename_i q t hq
        rw [hq] at e
        split at h
        · rename_i hq34
          subst hq34
          split at h
          · simp at h
          · rename_i key r1 hkey
            obtain ⟨k, rfl, hk⟩ := string_sound _ hkey
            obtain ⟨w, hw, ew, -⟩ := skipWs_sound r1
            split at h
            · simp at h
            · rename_i c r2 h2
              rw [h2] at ew
              split at h
              · rename_i h58
                subst h58
                obtain ⟨w', hw', ew', -⟩ := skipWs_sound r2
                split at h
                · simp at h
                · rename_i v q hv
                  obtain ⟨b, eb, hb⟩ := ihv _ _ _ hv
                  obtain ⟨d, hd, ed, -⟩ := skipWs_sound q
                  split at h
                  · simp at h
                  · rename_i c q' hs
                    rw [hs] at ed
                    split at h
                    · rename_i hc
                      simp only [Option.some.injEq, Prod.mk.injEq] at h
                      obtain ⟨rfl, rfl⟩ := h
                      exact ⟨a ++ 34 :: (k ++ 34 :: (w ++ 58 :: (w' ++ (b ++ d)))), by rw [e, ew, ew', eb, ed, hc]; simp,
                        .one ha hk hw hw' hb hd⟩
                    · split at h
                      · rename_i hc
                        simp only [Option.map_eq_some_iff, Prod.mk.injEq] at h
                        obtain ⟨⟨l', r'⟩, hl, rfl, rfl⟩ := h
                        obtain ⟨b', rfl, hb'⟩ := ihm _ _ _ hl
                        exact ⟨a ++ 34 :: (k ++ 34 :: (w ++ 58 :: (w' ++ (b ++ (d ++ 44 :: b'))))),
                          by rw [e, ew, ew', eb, ed, hc]; simp, .cons ha hk hw hw' hb hd hb'⟩
                      · simp at h
              · simp at h
        · simp at h

end Cardano.Genesis.JsonText
