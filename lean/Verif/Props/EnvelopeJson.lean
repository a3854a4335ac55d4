import Verif.Spec.Json
import Verif.Props.CertFiles

/-! # C106: the files are JSON documents -/

namespace Cardano.Spec.Json

/-! ## Strings -/

theorem str_self {t : Bytes} (h : Plain t) : Str t t := by
  induction t with
  | nil => exact .nil
  | cons c t ih => exact .plain (h c (by simp)) (ih fun x hx => h x (by simp [hx]))

theorem utf8Of_length (n : Nat) : (utf8Of n).length ≤ 4 := by
  unfold utf8Of
  split
  · simp
  · split
    · simp
    · split <;> simp

theorem hex4_length {h : Bytes} {n : Nat} (hh : Hex4 h n) : h.length = 4 := by
  obtain ⟨a, b, c, d, x, y, z, w, rfl, -⟩ := hh
  rfl

theorem hex4_no_quote {h : Bytes} {n : Nat} (hh : Hex4 h n) : (34 : UInt8) ∉ h := by
  obtain ⟨a, b, c, d, x, y, z, w, rfl, ha, hb, hc, hd, -⟩ := hh
  have key : ∀ v, hexDigit 34 ≠ some v := by intro v; simp [hexDigit]
  intro hm
  simp only [List.mem_cons, List.not_mem_nil, or_false] at hm
  rcases hm with rfl | rfl | rfl | rfl
  · exact key _ ha
  · exact key _ hb
  · exact key _ hc
  · exact key _ hd

/-- The text of a string is not shorter than the string, and equally long only without escapes. -/
theorem str_length {k s : Bytes} (h : Str k s) : s.length ≤ k.length ∧ (s.length = k.length → k = s ∧ Plain s) := by
  induction h with
  | nil => exact ⟨Nat.le_refl _, fun _ => ⟨rfl, by simp [Plain]⟩⟩
  | plain hc _ ih =>
    refine ⟨by simp only [List.length_cons]; omega, fun h => ?_⟩
    simp only [List.length_cons, Nat.add_right_cancel_iff] at h
    obtain ⟨rfl, hp⟩ := ih.2 h
    refine ⟨rfl, ?_⟩
    intro x hx
    rcases List.mem_cons.mp hx with rfl | hx
    · exact hc
    · exact hp x hx
  | esc _ _ ih => exact ⟨by simp only [List.length_cons]; omega, fun h => by simp only [List.length_cons] at h; omega⟩
  | @unicode h n t s hh _ _ ih =>
    have := utf8Of_length n
    have := hex4_length hh
    exact ⟨by simp only [List.length_cons, List.length_append]; omega, fun h => by simp only [List.length_cons, List.length_append] at h; omega⟩
  | @pair h l hi lo t s h1 h2 _ _ _ _ _ ih =>
    have := utf8Of_length (0x10000 + (hi - 0xD800) * 0x400 + (lo - 0xDC00))
    have := hex4_length h1
    have := hex4_length h2
    exact ⟨by simp only [List.length_cons, List.length_append]; omega, fun h => by simp only [List.length_cons, List.length_append] at h; omega⟩

/-- A quotation mark in the text of a string stands for one further to the front in the string. -/
theorem str_quote {k s : Bytes} (h : Str k s) : ∀ q : Nat, k[q]? = some 34 → ∃ j < q, s[j]? = some 34 := by
  induction h with
  | nil => intro q hq; simp at hq
  | @plain c t s hc _ ih =>
    intro q hq
    match q with
    | 0 => simp at hq; exact absurd hq hc.2.1
    | q + 1 =>
      obtain ⟨j, hj, e⟩ := ih q (by simpa using hq)
      exact ⟨j + 1, by omega, by simpa using e⟩
  | @esc e x t s he _ ih =>
    intro q hq
    match q with
    | 0 => simp at hq
    | 1 =>
      simp at hq
      subst hq
      have : x = 34 := by simpa [escapes] using he
      exact ⟨0, by omega, by simp [this]⟩
    | q + 2 =>
      obtain ⟨j, hj, e⟩ := ih q (by simpa using hq)
      exact ⟨j + 1, by omega, by simpa using e⟩
  | @unicode h n t s hh _ _ ih =>
    intro q hq
    have hl := hex4_length hh
    have hu := utf8Of_length n
    match q with
    | 0 => simp at hq
    | 1 => simp at hq
    | q + 2 =>
      simp only [List.getElem?_cons_succ] at hq
      by_cases hlt : q < h.length
      · rw [List.getElem?_append_left hlt] at hq
        exact absurd (List.mem_of_getElem? hq) (hex4_no_quote hh)
      · rw [List.getElem?_append_right (by omega)] at hq
        obtain ⟨j, hj, e⟩ := ih _ hq
        refine ⟨(utf8Of n).length + j, by omega, ?_⟩
        rw [List.getElem?_append_right (by omega), Nat.add_sub_cancel_left]
        exact e
  | @pair h l hi lo t s h1 h2 _ _ _ _ _ ih =>
    intro q hq
    have hl := hex4_length h1
    have hl2 := hex4_length h2
    have hu := utf8Of_length (0x10000 + (hi - 0xD800) * 0x400 + (lo - 0xDC00))
    match q with
    | 0 => simp at hq
    | 1 => simp at hq
    | q + 2 =>
      simp only [List.getElem?_cons_succ] at hq
      by_cases hlt : q < h.length
      · rw [List.getElem?_append_left hlt] at hq
        exact absurd (List.mem_of_getElem? hq) (hex4_no_quote h1)
      · rw [List.getElem?_append_right (by omega)] at hq
        generalize hr : q - h.length = r at hq
        match r with
        | 0 => simp at hq
        | 1 => simp at hq
        | r + 2 =>
          simp only [List.getElem?_cons_succ] at hq
          by_cases hlt2 : r < l.length
          · rw [List.getElem?_append_left hlt2] at hq
            exact absurd (List.mem_of_getElem? hq) (hex4_no_quote h2)
          · rw [List.getElem?_append_right (by omega)] at hq
            obtain ⟨j, hj, e⟩ := ih _ hq
            refine ⟨(utf8Of (0x10000 + (hi - 0xD800) * 0x400 + (lo - 0xDC00))).length + j, by omega, ?_⟩
            rw [List.getElem?_append_right (by omega), Nat.add_sub_cancel_left]
            exact e

/-- The closing quotation mark is found: if the text continues like a plain string, or means the string it starts like, it is
that string and contains no character that needs an escape. -/
theorem lit {k s v r r' : Bytes} (h : Str k s) (e : k ++ 34 :: r' = v ++ 34 :: r) (hv : Plain v ∨ s = v) :
    k = v ∧ s = v ∧ r' = r ∧ Plain v := by
  rcases hv with hv | rfl
  · induction h generalizing v with
    | nil =>
      match v with
      | [] => exact ⟨rfl, rfl, by simpa using e, hv⟩
      | x :: v =>
        simp only [List.nil_append, List.cons_append, List.cons.injEq] at e
        exact absurd e.1.symm (hv x (by simp)).2.1
    | plain hc _ ih =>
      match v with
      | [] =>
        simp only [List.nil_append, List.cons_append, List.cons.injEq] at e
        exact absurd e.1 hc.2.1
      | x :: v =>
        simp only [List.cons_append, List.cons.injEq] at e
        obtain ⟨rfl, e⟩ := e
        obtain ⟨rfl, h2, h3, h4⟩ := ih e (fun y hy => hv y (by simp [hy]))
        exact ⟨rfl, by rw [h2], h3, hv⟩
    | esc _ _ _ =>
      match v with
      | [] => simp at e
      | x :: v =>
        simp only [List.cons_append, List.cons.injEq] at e
        exact absurd e.1.symm (hv x (by simp)).2.2
    | unicode _ _ _ _ =>
      match v with
      | [] => simp at e
      | x :: v =>
        simp only [List.cons_append, List.cons.injEq] at e
        exact absurd e.1.symm (hv x (by simp)).2.2
    | pair _ _ _ _ _ _ _ _ =>
      match v with
      | [] => simp at e
      | x :: v =>
        simp only [List.cons_append, List.cons.injEq] at e
        exact absurd e.1.symm (hv x (by simp)).2.2
  · obtain ⟨h1, h2⟩ := str_length h
    have hpre : s <+: k := by
      refine List.prefix_of_prefix_length_le ⟨34 :: r, e.symm⟩ (List.prefix_append k (34 :: r')) h1
    have noq : ∀ q : Nat, k[q]? ≠ some 34 := by
      intro q
      induction q using Nat.strongRecOn with
      | _ q ih =>
        intro hq
        obtain ⟨j, hj, hs⟩ := str_quote h q hq
        obtain ⟨t, rfl⟩ := hpre
        refine ih j hj ?_
        have : j < s.length := by
          by_contra hx
          rw [List.getElem?_eq_none (by omega)] at hs
          cases hs
        rw [List.getElem?_append_left this]
        exact hs
    obtain ⟨t, rfl⟩ := hpre
    match t with
    | [] =>
      rw [List.append_nil] at *
      obtain ⟨-, hp⟩ := h2 rfl
      exact ⟨rfl, rfl, by simpa using e, hp⟩
    | x :: t =>
      rw [List.append_assoc] at e
      have e := List.append_cancel_left e
      simp only [List.cons_append, List.cons.injEq] at e
      exact absurd (by rw [List.getElem?_append_right (Nat.le_refl _)]; simp [e.1]) (noq s.length)

/-! ## White space and values -/

theorem ws_span {a w p q : Bytes} {x y : UInt8} (ha : Ws a) (hw : Ws w) (hx : ¬ IsWs x) (hy : ¬ IsWs y)
    (e : a ++ x :: p = w ++ y :: q) : a = w ∧ x = y ∧ p = q := by
  induction a generalizing w with
  | nil =>
    match w with
    | [] => simpa using e
    | z :: w =>
      simp only [List.nil_append, List.cons_append, List.cons.injEq] at e
      exact absurd (e.1 ▸ hw z (by simp)) hx
  | cons c a ih =>
    match w with
    | [] =>
      simp only [List.nil_append, List.cons_append, List.cons.injEq] at e
      exact absurd (e.1 ▸ ha c (by simp)) hy
    | z :: w =>
      simp only [List.cons_append, List.cons.injEq] at e
      obtain ⟨rfl, e⟩ := e
      obtain ⟨rfl, h⟩ := ih (fun y hy => ha y (by simp [hy])) (fun y hy => hw y (by simp [hy])) e
      exact ⟨rfl, h⟩

theorem num_head {b : Bytes} (h : Num b) : ∃ c t, b = c :: t ∧ (c = 45 ∨ IsDigit c) := by
  obtain ⟨sign, int, frac, exp, rfl, hs, hi, -, -⟩ := h
  rcases hs with rfl | rfl
  · rcases hi with rfl | ⟨d, ds, rfl, hd, -, -⟩
    · exact ⟨48, _, rfl, .inr (by unfold IsDigit; decide)⟩
    · exact ⟨d, _, rfl, .inr hd⟩
  · exact ⟨45, _, rfl, .inl rfl⟩

theorem digit_not_ws {c : UInt8} (h : c = 45 ∨ IsDigit c) : ¬ IsWs c ∧ c ≠ 34 ∧ c ≠ 123 := by
  rcases h with rfl | ⟨h1, h2⟩
  · unfold IsWs; decide
  · refine ⟨?_, ?_, ?_⟩
    · rintro (rfl | rfl | rfl | rfl) <;> revert h1 <;> decide
    · rintro rfl; revert h1; decide
    · rintro rfl; revert h2; decide

theorem val_head {b : Bytes} {v : Value} (h : Val b v) : ∃ c t, b = c :: t ∧ ¬ IsWs c := by
  cases h with
  | num h =>
    obtain ⟨c, t, rfl, hc⟩ := num_head h
    exact ⟨c, t, rfl, (digit_not_ws hc).1⟩
  | _ => exact ⟨_, _, rfl, by unfold IsWs; decide⟩

theorem val_str {t : Bytes} {v : Value} (h : Val (34 :: t) v) : ∃ k s, t = k ++ [34] ∧ Str k s ∧ v = .str s := by
  generalize hb : 34 :: t = b at h
  cases h with
  | num h =>
    obtain ⟨c, t', rfl, hc⟩ := num_head h
    injection hb with e
    exact absurd e.symm (digit_not_ws hc).2.1
  | @str k s h =>
    injection hb with _ e
    exact ⟨k, s, e, h, rfl⟩
  | _ =>
    injection hb with e
    exact absurd e (by decide)

theorem val_obj {t : Bytes} {v : Value} (h : Val (123 :: t) v) :
    ∃ b m, t = b ++ [125] ∧ v = .obj m ∧ (Ws b ∧ m = [] ∨ Members b m) := by
  generalize hb : 123 :: t = b at h
  cases h with
  | num h =>
    obtain ⟨c, t', rfl, hc⟩ := num_head h
    injection hb with e
    exact absurd e.symm (digit_not_ws hc).2.2
  | @noMembers w h =>
    injection hb with _ e
    exact ⟨w, [], e, rfl, .inl ⟨h, rfl⟩⟩
  | @obj b m h =>
    injection hb with _ e
    exact ⟨b, m, e, rfl, .inr h⟩
  | _ =>
    injection hb with e
    exact absurd e (by decide)

/-- The first member of an object, when its value starts like a string; something may follow the members. -/
theorem member_first {b Y w K V rest : Bytes} {m : List (Bytes × Value)} (h : Members b m) (hw : Ws w) (hK : Plain K)
    (e : b ++ Y = w ++ 34 :: (K ++ 34 :: 58 :: 32 :: 34 :: (V ++ 34 :: rest))) :
    ∃ k s r', Str k s ∧ k ++ 34 :: r' = V ++ 34 :: rest ∧ ((∃ d, Ws d ∧ r' = d ++ Y ∧ m = [(K, .str s)]) ∨
      ∃ d r m', Ws d ∧ r' = d ++ 44 :: (r ++ Y) ∧ m = (K, .str s) :: m' ∧ Members r m') := by
  have q34 : ¬ IsWs 34 := by unfold IsWs; decide
  have q58 : ¬ IsWs 58 := by unfold IsWs; decide
  have w32 : Ws [32] := by intro c hc; left; simpa using hc
  have core : ∀ {a k key bb c v : Bytes} {val : Value} {y : Bytes}, Ws a → Str k key → Ws bb → Ws c → Val v val →
      a ++ 34 :: (k ++ 34 :: (bb ++ 58 :: (c ++ (v ++ y)))) = w ++ 34 :: (K ++ 34 :: 58 :: 32 :: 34 :: (V ++ 34 :: rest)) →
      key = K ∧ ∃ k s, Str k s ∧ val = .str s ∧ k ++ 34 :: y = V ++ 34 :: rest := by
    intro a k key bb c v val y ha hk hb hc hv e0
    obtain ⟨-, -, e1⟩ := ws_span ha hw q34 q34 e0
    obtain ⟨-, hkey, e2, -⟩ := lit hk e1 (.inl hK)
    obtain ⟨-, -, e3⟩ := ws_span (w := []) hb (by simp [Ws]) q58 q58 e2
    obtain ⟨x, t, rfl, hx⟩ := val_head hv
    obtain ⟨-, rfl, e4⟩ := ws_span (w := [32]) hc w32 hx q34 e3
    obtain ⟨k', s, rfl, h1, h2⟩ := val_str hv
    exact ⟨hkey, k', s, h1, h2, by rw [← e4]; simp⟩
  cases h with
  | @one a k0 key b c v val d ha hk hb hc hv hd =>
    obtain ⟨rfl, k, s, h1, rfl, h3⟩ := core (y := d ++ Y) ha hk hb hc hv (by rw [← e]; simp only [List.append_assoc, List.cons_append])
    exact ⟨k, s, _, h1, h3, .inl ⟨_, hd, rfl, rfl⟩⟩
  | @cons a k0 key b c v val d r0 m0 ha hk hb hc hv hd hm =>
    obtain ⟨rfl, k, s, h1, rfl, h3⟩ := core (y := d ++ 44 :: (r0 ++ Y)) ha hk hb hc hv (by rw [← e]; simp only [List.append_assoc, List.cons_append])
    exact ⟨k, s, _, h1, h3, .inr ⟨_, _, _, hd, rfl, rfl, hm⟩⟩

end Cardano.Spec.Json

namespace Cardano.Util

open Cardano Cardano.Spec.Json

theorem ws_indent : Ws (ascii "\n    ") := by
  have : ascii "\n    " = [10, 32, 32, 32, 32] := by decide +kernel
  rw [this]
  intro c hc
  simp only [List.mem_cons, List.not_mem_nil, or_false] at hc
  unfold IsWs
  rcases hc with rfl | rfl | rfl | rfl | rfl <;> decide

theorem envelope_split (t d c : Bytes) : specEnvelope t d c =
    123 :: ((ascii "\n    " ++ 34 :: (ascii "type" ++ 34 :: 58 :: 32 :: 34 :: (t ++ 34 :: (44 ::
      (ascii "\n    " ++ 34 :: (ascii "description" ++ 34 :: 58 :: 32 :: 34 :: (d ++ 34 :: (44 ::
        (ascii "\n    " ++ 34 :: (ascii "cborHex" ++ 34 :: 58 :: 32 :: 34 :: (c ++ 34 :: [10]))))))))))) ++ [125]) := by
  have h1 : ascii "{\n    \"type\": \"" = 123 :: (ascii "\n    " ++ 34 :: (ascii "type" ++ [34, 58, 32, 34])) := by decide +kernel
  have h2 : ascii "\",\n    \"description\": \"" = 34 :: 44 :: (ascii "\n    " ++ 34 :: (ascii "description" ++ [34, 58, 32, 34])) := by decide +kernel
  have h3 : ascii "\",\n    \"cborHex\": \"" = 34 :: 44 :: (ascii "\n    " ++ 34 :: (ascii "cborHex" ++ [34, 58, 32, 34])) := by decide +kernel
  have h4 : ascii "\"\n}" = [34, 10, 125] := by decide +kernel
  rw [specEnvelope, h1, h2, h3, h4]
  simp

theorem plain_names : Plain (ascii "type") ∧ Plain (ascii "description") ∧ Plain (ascii "cborHex") := by
  unfold Plain IsPlain
  decide +kernel

/-- What a JSON reader makes of the document or of a part of it, if the fields are plain or come back as they are. -/
theorem envelope_read {t d c f r : Bytes} {v : Value} (h : Text f v) (hf : f ++ r = specEnvelope t d c)
    (hp : Plain t ∧ Plain d ∧ Plain c ∨ v = envelope t d c) : r = [] ∧ v = envelope t d c ∧ Plain t ∧ Plain d ∧ Plain c := by
  obtain ⟨n1, n2, n3⟩ := plain_names
  have q34 : ¬ IsWs 34 := by unfold IsWs; decide
  have q123 : ¬ IsWs 123 := by unfold IsWs; decide
  have q44 : ¬ IsWs 44 := by unfold IsWs; decide
  have q125 : ¬ IsWs 125 := by unfold IsWs; decide
  have nil : Ws [] := by simp [Ws]
  have w10 : Ws [10] := by intro c hc; right; right; left; simpa using hc
  obtain ⟨a, x, z, rfl, ha, hz, hv⟩ := h
  obtain ⟨y, x', rfl, hy⟩ := val_head hv
  rw [envelope_split] at hf
  have e : a ++ y :: (x' ++ (z ++ r)) = [] ++ 123 :: (ascii "\n    " ++ 34 :: (ascii "type" ++ 34 :: 58 :: 32 :: 34 :: (t ++ 34 :: (44 ::
      (ascii "\n    " ++ 34 :: (ascii "description" ++ 34 :: 58 :: 32 :: 34 :: (d ++ 34 :: (44 ::
        (ascii "\n    " ++ 34 :: (ascii "cborHex" ++ 34 :: 58 :: 32 :: 34 :: (c ++ 34 :: [10, 125]))))))))))) := by
    rw [List.nil_append]
    simpa using hf
  obtain ⟨rfl, rfl, e2⟩ := ws_span ha nil hy q123 e
  obtain ⟨b, m, rfl, rfl, hm⟩ := val_obj hv
  rw [List.append_assoc] at e2
  rcases hm with ⟨hb, rfl⟩ | hm
  · exact absurd (ws_span hb ws_indent q125 q34 e2).2.1 (by decide)
  -- the three members
  obtain ⟨k1, s1, r1, g1, g2, g3⟩ := member_first hm ws_indent n1 e2
  have hs1 : Plain t ∨ s1 = t := by
    rcases hp with hp | hp
    · exact .inl hp.1
    · right
      unfold envelope at hp
      injection hp with hp
      rcases g3 with ⟨_, -, -, rfl⟩ | ⟨_, _, _, -, -, rfl, -⟩ <;> simp at hp
      exact hp.1
  obtain ⟨-, rfl, rfl, p1⟩ := lit g1 g2 hs1
  rcases g3 with ⟨w1, g3, g4, -⟩ | ⟨w1, r', m', g3, g4, rfl, g5⟩
  · exact absurd (ws_span (a := w1) (w := []) g3 nil q125 q44 g4.symm).2.1 (by decide)
  obtain ⟨-, -, g6⟩ := ws_span (a := w1) (w := []) g3 nil q44 q44 g4.symm
  obtain ⟨k2, s2, r2, f1, f2, f3⟩ := member_first g5 ws_indent n2 g6
  have hs2 : Plain d ∨ s2 = d := by
    rcases hp with hp | hp
    · exact .inl hp.2.1
    · right
      unfold envelope at hp
      injection hp with hp
      rcases f3 with ⟨_, -, -, rfl⟩ | ⟨_, _, _, -, -, rfl, -⟩ <;> simp at hp
      exact hp.1
  obtain ⟨-, rfl, rfl, p2⟩ := lit f1 f2 hs2
  rcases f3 with ⟨w2, f3, f4, -⟩ | ⟨w2, r2, m'', f3, f4, rfl, f5⟩
  · exact absurd (ws_span (a := w2) (w := []) f3 nil q125 q44 f4.symm).2.1 (by decide)
  obtain ⟨-, -, f6⟩ := ws_span (a := w2) (w := []) f3 nil q44 q44 f4.symm
  obtain ⟨k3, s3, r3, j1, j2, j3⟩ := member_first f5 ws_indent n3 f6
  have hs3 : Plain c ∨ s3 = c := by
    rcases hp with hp | hp
    · exact .inl hp.2.2
    · right
      unfold envelope at hp
      injection hp with hp
      rcases j3 with ⟨_, -, -, rfl⟩ | ⟨_, _, _, -, -, rfl, -⟩ <;> simp at hp
      · exact hp
      · exact hp.1
  obtain ⟨-, rfl, rfl, p3⟩ := lit j1 j2 hs3
  rcases j3 with ⟨w3, j3, j4, rfl⟩ | ⟨w3, r3, m3, j3, j4, -, -⟩
  · obtain ⟨-, -, j5⟩ := ws_span (a := w3) (w := [10]) j3 w10 q125 q125 j4.symm
    refine ⟨?_, rfl, p1, p2, p3⟩
    exact (List.append_eq_nil_iff.mp (show z ++ r = [] from j5)).2
  · exact absurd (ws_span (a := w3) (w := [10]) j3 w10 q44 q125 j4.symm).2.1 (by decide)

/-- **C106** `writeEnvelopeTextFile` with any three strings: the document is a JSON text for the object with the members `type`,
`description` and `cborHex` in this order and with these strings exactly if none of them contains a quotation mark, a backslash or a
control character (the function does not escape); and then it means nothing else. -/
theorem C106_envelope_json (t d c : Bytes) :
    (Text (specEnvelope t d c) (envelope t d c) ↔ Plain t ∧ Plain d ∧ Plain c) ∧
    (Plain t ∧ Plain d ∧ Plain c → ∀ v, Text (specEnvelope t d c) v → v = envelope t d c) := by
  refine ⟨⟨fun h => (envelope_read h (List.append_nil _) (.inr rfl)).2.2, ?_⟩, fun hp v h => (envelope_read h (List.append_nil _) (.inl hp)).2.1⟩
  rintro ⟨h1, h2, h3⟩
  obtain ⟨n1, n2, n3⟩ := plain_names
  have nil : Ws [] := by simp [Ws]
  have w32 : Ws [32] := by intro c hc; left; simpa using hc
  have w10 : Ws [10] := by intro c hc; right; right; left; simpa using hc
  have m3 := Members.one ws_indent (str_self n3) nil w32 (Val.str (str_self h3)) w10
  have m2 := Members.cons ws_indent (str_self n2) nil w32 (Val.str (str_self h2)) nil m3
  have m1 := Members.cons ws_indent (str_self n1) nil w32 (Val.str (str_self h1)) nil m2
  refine ⟨[], _, [], ?_, nil, nil, Val.obj m1⟩
  rw [envelope_split]
  simp

/-- **C106** The same said of the call, on a disk with room for the file: it succeeds, and what the path then holds is a JSON text for
the object with exactly the given strings, and only for it, if and only if nothing in them needs an escape. -/
theorem C106_written (dk : Disk) (old t d c : Bytes) (ho : dk.openable = true) (hs : 60 + t.length + d.length + c.length ≤ dk.space) :
    (writeEnvelope dk old t d c).2 = .ok () ∧
    ((∀ v, Text (writeEnvelope dk old t d c).1 v ↔ v = envelope t d c) ↔ Plain t ∧ Plain d ∧ Plain c) := by
  have l1 : (ascii "{\n    \"type\": \"").length = 15 := by decide +kernel
  have l2 : (ascii "\",\n    \"description\": \"").length = 23 := by decide +kernel
  have l3 : (ascii "\",\n    \"cborHex\": \"").length = 19 := by decide +kernel
  have l4 : (ascii "\"\n}").length = 3 := by decide +kernel
  rw [(C18_envelope_partial dk old t d c).2.1 ho (by simp only [specEnvelope, List.length_append]; omega)]
  obtain ⟨h1, h2⟩ := C106_envelope_json t d c
  refine ⟨rfl, fun h => h1.mp ((h _).mpr rfl), fun hp v => ⟨h2 hp v, ?_⟩⟩
  rintro rfl
  exact h1.mpr hp

/-- A document cut short is no JSON text at all. -/
theorem torn {t d c f : Bytes} (hp : Plain t ∧ Plain d ∧ Plain c)
    (hf : f <+: specEnvelope t d c) (hne : f ≠ specEnvelope t d c) (v : Value) : ¬ Text f v := by
  intro h
  obtain ⟨r, hr⟩ := hf
  obtain ⟨rfl, -⟩ := envelope_read h hr (.inl hp)
  exact hne (by simpa using hr)

/-- **C106** A save interrupted at any moment, with fields in which nothing needs an escape: the path
holds what it held before, or the whole document, or something that is no JSON text, which a reader rejects; never a document
that means anything else than the three strings. -/
theorem C106_crash (dk : Disk) (old t d c f : Bytes) (hp : Plain t ∧ Plain d ∧ Plain c)
    (h : CrashContent dk old t d c f) :
    f = old ∨ (∀ v, Text f v ↔ v = envelope t d c) ∨ ∀ v, ¬ Text f v := by
  rcases (C18_envelope_partial dk old t d c).1 f h with rfl | h
  · exact .inl rfl
  · right
    by_cases he : f = specEnvelope t d c
    · left
      intro v
      rw [he]
      exact ⟨(C106_envelope_json t d c).2 hp v, by rintro rfl; exact (C106_envelope_json t d c).1.mpr hp⟩
    · exact .inr (torn hp h he)

/-- A file that is an ASCII JSON text for the text envelope with these strings, and for nothing else. -/
def IsEnvelope (file type description cborHex : Bytes) : Prop :=
  (∀ v, Text file v ↔ v = envelope type description cborHex) ∧ ∀ c ∈ file, c < 128

/-- Printable ASCII characters other than the quotation mark, the backslash and those after `|`. -/
def Safe (s : Bytes) : Prop := ∀ c ∈ s, 32 ≤ c ∧ c < 125 ∧ c ≠ 34 ∧ c ≠ 92

theorem safe_plain {s : Bytes} (h : Safe s) : Plain s := fun c hc => ⟨(h c hc).1, (h c hc).2.2⟩

theorem safe_append {s t : Bytes} (h : Safe s) (h' : Safe t) : Safe (s ++ t) := by
  intro c hc
  rcases List.mem_append.mp hc with hc | hc
  · exact h c hc
  · exact h' c hc

theorem safe_hex (b : Bytes) : Safe (Hex.encode b) := by
  intro c hc
  have := (Hex.C01_hex_roundtrip b).2.2 c hc
  have key : ∀ c ∈ ascii "0123456789abcdef", 32 ≤ c ∧ c < 125 ∧ c ≠ 34 ∧ c ≠ 92 := by decide +kernel
  exact key c this

theorem isEnvelope {t d c : Bytes} (ht : Safe t) (hd : Safe d) (hc : Safe c) : IsEnvelope (specEnvelope t d c) t d c := by
  refine ⟨fun v => ⟨(C106_envelope_json t d c).2 ⟨safe_plain ht, safe_plain hd, safe_plain hc⟩ v, ?_⟩, ?_⟩
  · rintro rfl
    exact (C106_envelope_json t d c).1.mpr ⟨safe_plain ht, safe_plain hd, safe_plain hc⟩
  · have low : ∀ {s : Bytes}, Safe s → ∀ x ∈ s, x < 128 := by
      intro s hs x hx
      have := (hs x hx).2.1
      rw [UInt8.lt_iff_toNat_lt] at this ⊢
      have e1 : (125 : UInt8).toNat = 125 := rfl
      have e2 : (128 : UInt8).toNat = 128 := rfl
      omega
    have l1 : ∀ c ∈ ascii "{\n    \"type\": \"", c < 128 := by decide +kernel
    have l2 : ∀ c ∈ ascii "\",\n    \"description\": \"", c < 128 := by decide +kernel
    have l3 : ∀ c ∈ ascii "\",\n    \"cborHex\": \"", c < 128 := by decide +kernel
    have l4 : ∀ c ∈ ascii "\"\n}", c < 128 := by decide +kernel
    intro x hx
    simp only [specEnvelope, List.mem_append] at hx
    rcases hx with (((((hx | hx) | hx) | hx) | hx) | hx) | hx
    · exact l1 x hx
    · exact low ht x hx
    · exact l2 x hx
    · exact low hd x hx
    · exact l3 x hx
    · exact low hc x hx
    · exact l4 x hx

end Cardano.Util

namespace Cardano.Pool

open Cardano Cardano.Util Cardano.Spec.Json

theorem decimal_safe {n : Nat} {s : Bytes} (h : Decimal n s) : Safe s := by
  intro c hc
  obtain ⟨h1, h2⟩ := h.1 c hc
  refine ⟨?_, ?_, ?_, ?_⟩
  · rw [UInt8.le_iff_toNat_le]; exact Nat.le_trans (by decide) h1
  · rw [UInt8.lt_iff_toNat_lt]; exact Nat.lt_of_le_of_lt h2 (by decide)
  · rintro rfl; revert h1; decide
  · rintro rfl; revert h2; decide

/-- **C106** The files of the seven kinds of keys, written without an error of the disk: each is an ASCII JSON text for the object
with the type and description of the kind and the hexadecimal CBOR byte string of the key, and for nothing else. -/
theorem C106_key_files (dk : Disk) (old k32 k64 : Bytes) (x : Bip32.Prv) (kes : Kes.Key) (h32 : k32.length = 32) (h64 : k64.length = 64)
    (hx : x.key.length = 64) (hk : 608 ≤ kes.prv.length) (ho : dk.openable = true) (hs : 2000 ≤ dk.space) :
    IsEnvelope (saveVkey dk old k32).1 (ascii "StakePoolVerificationKey_ed25519") (ascii "Stake Pool Operator Verification Key")
      (ascii "5820" ++ Hex.encode k32) ∧
    IsEnvelope (saveSkey dk old k32).1 (ascii "StakePoolSigningKey_ed25519") (ascii "Stake Pool Operator Signing Key")
      (ascii "5820" ++ Hex.encode k32) ∧
    IsEnvelope (saveXskey dk old x).1 (ascii "StakePoolExtendedSigningKey_ed25519_bip32") (ascii "Stake Pool Operator Signing Key")
      (ascii "5840" ++ Hex.encode x.key) ∧
    IsEnvelope (saveVrfVkey dk old k32).1 (ascii "VrfVerificationKey_PraosVRF") (ascii "VRF Verification Key")
      (ascii "5820" ++ Hex.encode k32) ∧
    IsEnvelope (saveVrfSkey dk old k64).1 (ascii "VrfSigningKey_PraosVRF") (ascii "VRF Signing Key")
      (ascii "5840" ++ Hex.encode k64) ∧
    IsEnvelope (saveKesVkey dk old k32).1 (ascii "KesVerificationKey_ed25519_kes_2^6") (ascii "KES Verification Key")
      (ascii "5820" ++ Hex.encode k32) ∧
    IsEnvelope (saveKesSkey dk old kes).1 (ascii "KesSigningKey_ed25519_kes_2^6") (ascii "KES Signing Key")
      (ascii "590260" ++ Hex.encode (kes.prv.take 608)) := by
  obtain ⟨a1, a2, a3, a4, a5, a6, a7⟩ := C72_content dk old k32 k64 x kes h32 h64 hx hk ho hs
  have p1 : Safe (ascii "5820") := by unfold Safe; decide +kernel
  have p2 : Safe (ascii "5840") := by unfold Safe; decide +kernel
  have p3 : Safe (ascii "590260") := by unfold Safe; decide +kernel
  rw [a1, a2, a3, a4, a5, a6, a7]
  refine ⟨?_, ?_, ?_, ?_, ?_, ?_, ?_⟩
  · exact isEnvelope (by unfold Safe; decide +kernel) (by unfold Safe; decide +kernel) (safe_append p1 (safe_hex _))
  · exact isEnvelope (by unfold Safe; decide +kernel) (by unfold Safe; decide +kernel) (safe_append p1 (safe_hex _))
  · exact isEnvelope (by unfold Safe; decide +kernel) (by unfold Safe; decide +kernel) (safe_append p2 (safe_hex _))
  · exact isEnvelope (by unfold Safe; decide +kernel) (by unfold Safe; decide +kernel) (safe_append p1 (safe_hex _))
  · exact isEnvelope (by unfold Safe; decide +kernel) (by unfold Safe; decide +kernel) (safe_append p2 (safe_hex _))
  · exact isEnvelope (by unfold Safe; decide +kernel) (by unfold Safe; decide +kernel) (safe_append p1 (safe_hex _))
  · exact isEnvelope (by unfold Safe; decide +kernel) (by unfold Safe; decide +kernel) (safe_append p3 (safe_hex _))

/-- **C106** The same of the operational certificate and of the counter (whose description ends with the number in decimal). -/
theorem C106_certificate_files (dk : Disk) (old : Bytes) (o : OpCert) (ho' : o.WF) (n : Nat) (hn : n < 2 ^ 64) (vkey : Bytes)
    (hv : vkey.length = 32) (ho : dk.openable = true) (hs : 2000 ≤ dk.space) :
    (∃ b, OpCertBytes o.hotVkey o.seq o.period o.sigma b ∧
      IsEnvelope (o.save dk old vkey).1 (ascii "NodeOperationalCertificate") [] (Hex.encode ([0x82] ++ b ++ [0x58, 0x20] ++ vkey))) ∧
    (∃ b s, CborUint n b ∧ Decimal n s ∧
      IsEnvelope (counterSave dk old n vkey).1 (ascii "NodeOperationalCertificateIssueCounter")
        (ascii "Next certificate issue number: " ++ s) (Hex.encode ([0x82] ++ b ++ [0x58, 0x20] ++ vkey))) := by
  constructor
  · obtain ⟨b, h1, h2⟩ := C75_opcert_file dk old o ho' vkey hv ho hs
    refine ⟨b, h1, ?_⟩
    rw [h2]
    exact isEnvelope (by unfold Safe; decide +kernel) (by simp [Safe]) (safe_hex _)
  · obtain ⟨b, s, h1, h2, h3⟩ := C75_counter_file dk old n hn vkey hv ho hs
    refine ⟨b, s, h1, h2, ?_⟩
    rw [h3]
    refine isEnvelope (by unfold Safe; decide +kernel) (safe_append (by unfold Safe; decide +kernel) ?_) (safe_hex _)
    exact decimal_safe h2

/-- **C106** And of the registration and retirement certificates, whatever their contents, if the disk takes the file. -/
theorem C106_pool_files (dk : Disk) (old : Bytes) (p : Ledger.PoolParams) (r : Retirement) (b b' : Bytes)
    (hp : regSerialize p = .ok b) (hr : r.serialize = .ok b') (ho : dk.openable = true)
    (hs : 200 + 2 * b.length ≤ dk.space ∧ 200 + 2 * b'.length ≤ dk.space) :
    IsEnvelope (regSave dk old p).1 (ascii "NodeOperationalCertificate") (ascii "Stake Pool Registration Certificate") (Hex.encode b) ∧
    IsEnvelope (r.save dk old).1 (ascii "DeregistrationCertificateManager") (ascii "Stake Pool Retirement Certificate") (Hex.encode b') := by
  have l1 : (ascii "{\n    \"type\": \"").length = 15 := by decide +kernel
  have l2 : (ascii "\",\n    \"description\": \"").length = 23 := by decide +kernel
  have l3 : (ascii "\",\n    \"cborHex\": \"").length = 19 := by decide +kernel
  have l4 : (ascii "\"\n}").length = 3 := by decide +kernel
  have l5 : (ascii "NodeOperationalCertificate").length = 26 := by decide +kernel
  have l6 : (ascii "Stake Pool Registration Certificate").length = 35 := by decide +kernel
  have l7 : (ascii "DeregistrationCertificateManager").length = 32 := by decide +kernel
  have l8 : (ascii "Stake Pool Retirement Certificate").length = 33 := by decide +kernel
  have n1 := (Hex.C01_hex_roundtrip b).2.1
  have n2 := (Hex.C01_hex_roundtrip b').2.1
  obtain ⟨e1, e2, -⟩ := C75_certificate_types_partial dk old p r b b' hp hr
    ⟨ho, by simp only [specEnvelope, List.length_append]; omega⟩ ⟨ho, by simp only [specEnvelope, List.length_append]; omega⟩
  rw [e1, e2]
  exact ⟨isEnvelope (by unfold Safe; decide +kernel) (by unfold Safe; decide +kernel) (safe_hex _),
    isEnvelope (by unfold Safe; decide +kernel) (by unfold Safe; decide +kernel) (safe_hex _)⟩

/-- A description with a quotation mark is not read back. -/
example (t c : Bytes) : ¬ Text (specEnvelope t (ascii "the \"cold\" key") c) (envelope t (ascii "the \"cold\" key") c) := by
  intro h
  have := ((C106_envelope_json _ _ _).1.mp h).2.1 34 (by decide +kernel)
  exact this.2.1 rfl

/-- A disk and a key for which the hypotheses hold. -/
example : ∃ dk : Disk, dk.openable = true ∧ 2000 ≤ dk.space ∧
    IsEnvelope (saveVkey dk [] (List.replicate 32 7)).1 (ascii "StakePoolVerificationKey_ed25519")
      (ascii "Stake Pool Operator Verification Key") (ascii "5820" ++ Hex.encode (List.replicate 32 7)) :=
  ⟨{ openable := true, bufCap := 8191, space := 2000 }, rfl, Nat.le_refl _,
    (C106_key_files _ _ (List.replicate 32 7) (List.replicate 64 7) ⟨List.replicate 64 1, List.replicate 32 1⟩ ⟨List.replicate 608 1, 0⟩
      rfl rfl rfl (by rw [List.length_replicate]) rfl (Nat.le_refl _)).1⟩

end Cardano.Pool
