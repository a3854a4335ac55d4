import Verif.Props.LedgerMeaning

/-! # The transactions of the grammar are those that mean something, and they mean one thing (C99) -/

namespace Cardano.Ledger

open Cardano.Cbor Cardano.Spec.Ledger

theorem forall₂_pairs {α β} {P : α → β → Prop} {l : List α} {m : List β} (h : List.Forall₂ P l m) :
    ∃ ps : List (α × β), ps.map (·.1) = l ∧ ps.map (·.2) = m ∧ ∀ p ∈ ps, P p.1 p.2 := by
  induction h with
  | nil => exact ⟨[], rfl, rfl, by simp⟩
  | @cons a b l m h1 _ ih =>
    obtain ⟨ps, e1, e2, h⟩ := ih
    exact ⟨(a, b) :: ps, by simp [e1], by simp [e2], by simpa using ⟨h1, fun x y hx => h (x, y) hx⟩⟩

theorem script_iff (i : Item) : MultisigC i ↔ ∃ s, ScriptMeans i s := by
  constructor
  · intro h
    induction h with
    | @pubkey h hb => obtain ⟨b, rfl, hl⟩ := hb; exact ⟨_, .pubkey hl⟩
    | @all l _ ih =>
      obtain ⟨ps, rfl, -, hp⟩ := forall₂_pairs (forall₂_exists l ih).choose_spec
      exact ⟨_, .all hp⟩
    | @any l _ ih =>
      obtain ⟨ps, rfl, -, hp⟩ := forall₂_pairs (forall₂_exists l ih).choose_spec
      exact ⟨_, .any hp⟩
    | @nOfK n l _ ih =>
      obtain ⟨ps, rfl, -, hp⟩ := forall₂_pairs (forall₂_exists l ih).choose_spec
      exact ⟨_, .nOfK hp⟩
  · rintro ⟨s, h⟩
    induction h with
    | @pubkey h hl => exact .pubkey ⟨_, rfl, hl⟩
    | @all ps _ ih => exact .all fun s hs => by obtain ⟨p, hp, rfl⟩ := List.mem_map.mp hs; exact ih p hp
    | @any ps _ ih => exact .any fun s hs => by obtain ⟨p, hp, rfl⟩ := List.mem_map.mp hs; exact ih p hp
    | @nOfK n ps _ ih => exact .nOfK fun s hs => by obtain ⟨p, hp, rfl⟩ := List.mem_map.mp hs; exact ih p hp

theorem pairs_unique {α β} {P : α → β → Prop} : ∀ (ps ps' : List (α × β)), (∀ p ∈ ps, ∀ s', P p.1 s' → p.2 = s') →
    (∀ p ∈ ps', P p.1 p.2) → ps.map (·.1) = ps'.map (·.1) → ps.map (·.2) = ps'.map (·.2)
  | [], [], _, _, _ => rfl
  | [], _ :: _, _, _, e => by simp at e
  | _ :: _, [], _, _, e => by simp at e
  | p :: ps, p' :: ps', h, h', e => by
    simp only [List.map_cons, List.cons.injEq] at e ⊢
    exact ⟨h p (by simp) _ (e.1 ▸ h' p' (by simp)),
      pairs_unique ps ps' (fun q hq => h q (by simp [hq])) (fun q hq => h' q (by simp [hq])) e.2⟩

theorem script_unique (i : Item) (s s' : Script) (h : ScriptMeans i s) (h' : ScriptMeans i s') : s = s' := by
  induction h generalizing s' with
  | @pubkey h hl =>
    generalize hi : Item.array [.uint 0, .bstr h] = i at h'
    cases h' <;> simp at hi
    rw [hi]
  | @all ps _ ih =>
    generalize hi : Item.array [.uint 1, .array (ps.map (·.1))] = i at h'
    cases h' <;> simp at hi
    next qs hq => rw [pairs_unique ps qs ih hq hi]
  | @any ps _ ih =>
    generalize hi : Item.array [.uint 2, .array (ps.map (·.1))] = i at h'
    cases h' <;> simp at hi
    next qs hq => rw [pairs_unique ps qs ih hq hi]
  | @nOfK n ps _ ih =>
    generalize hi : Item.array [.uint 3, .uint n, .array (ps.map (·.1))] = i at h'
    cases h' <;> simp at hi
    next n' qs hq => rw [pairs_unique ps qs ih hq hi.2, hi.1]

/-! ## Inputs, outputs, witnesses -/

theorem in_iff (i : Item) : TxInC i ↔ ∃ t, InMeans i t := by
  constructor
  · rintro ⟨l, rfl, hm⟩
    rcases l with _ | ⟨a, _ | ⟨b, _ | ⟨c, l⟩⟩⟩ <;> simp only [Matches, and_false] at hm
    obtain ⟨⟨x, rfl, hx⟩, ⟨n, rfl⟩, -⟩ := hm
    exact ⟨⟨x, n⟩, rfl, hx⟩
  · rintro ⟨t, rfl, ht⟩; exact ⟨_, rfl, ⟨_, rfl, ht⟩, ⟨_, rfl⟩, trivial⟩

theorem in_unique (i : Item) (t t' : TxIn) (h : InMeans i t) (h' : InMeans i t') : t = t' := by
  have := h.1.symm.trans h'.1
  cases t; cases t'; simp_all

theorem out_iff (i : Item) : TxOutC i ↔ ∃ t, OutMeans i t := by
  constructor
  · rintro ⟨l, rfl, hm⟩
    rcases l with _ | ⟨a, _ | ⟨b, _ | ⟨c, l⟩⟩⟩ <;> simp only [Matches, and_false] at hm
    obtain ⟨⟨x, rfl⟩, ⟨n, rfl⟩, -⟩ := hm
    exact ⟨⟨x, n⟩, rfl⟩
  · rintro ⟨t, rfl⟩; exact ⟨_, rfl, ⟨_, rfl⟩, ⟨_, rfl⟩, trivial⟩

theorem out_unique (i : Item) (t t' : TxOut) (h : OutMeans i t) (h' : OutMeans i t') : t = t' := by
  have : _ = _ := Eq.trans (Eq.symm h) h'
  cases t; cases t'; simp_all

theorem vkey_iff (i : Item) : Group [BytesN 32, BytesN 64] i ↔ ∃ w, VkeyMeans i w := by
  constructor
  · rintro ⟨l, rfl, hm⟩
    rcases l with _ | ⟨a, _ | ⟨b, _ | ⟨c, l⟩⟩⟩ <;> simp only [Matches, and_false] at hm
    obtain ⟨⟨x, rfl, hx⟩, ⟨y, rfl, hy⟩, -⟩ := hm
    exact ⟨⟨x, y⟩, rfl, hx, hy⟩
  · rintro ⟨w, rfl, h1, h2⟩; exact ⟨_, rfl, ⟨_, rfl, h1⟩, ⟨_, rfl, h2⟩, trivial⟩

theorem vkey_unique (i : Item) (t t' : VkeyWitness) (h : VkeyMeans i t) (h' : VkeyMeans i t') : t = t' := by
  have := h.1.symm.trans h'.1
  cases t; cases t'; simp_all

theorem bootstrap_iff (i : Item) : Group [BytesN 32, BytesN 64, BytesN 32, BytesAny] i ↔ ∃ w, BootstrapMeans i w := by
  constructor
  · rintro ⟨l, rfl, hm⟩
    have hlen := group_length hm
    match l, hlen, hm with
    | [i0, i1, i2, i3], _, hm =>
      simp only [Matches] at hm
      obtain ⟨⟨x, rfl, hx⟩, ⟨y, rfl, hy⟩, ⟨z, rfl, hz⟩, ⟨u, rfl⟩, -⟩ := hm
      exact ⟨⟨x, y, z, u⟩, rfl, hx, hy, hz⟩
  · rintro ⟨w, rfl, h1, h2, h3⟩; exact ⟨_, rfl, ⟨_, rfl, h1⟩, ⟨_, rfl, h2⟩, ⟨_, rfl, h3⟩, ⟨_, rfl⟩, trivial⟩

theorem bootstrap_unique (i : Item) (t t' : BootstrapWitness) (h : BootstrapMeans i t) (h' : BootstrapMeans i t') : t = t' := by
  have := h.1.symm.trans h'.1
  cases t; cases t'; simp_all

theorem arrayMeans_iff {α} {P : Item → α → Prop} {Q : Item → Prop} (h : ∀ i, Q i ↔ ∃ a, P i a) (i : Item) :
    ArrayOf Q i ↔ ∃ l, ArrayMeans P l i := by
  constructor
  · rintro ⟨xs, rfl, hx⟩
    obtain ⟨m, hm⟩ := forall₂_exists (P := P) xs fun x hx' => (h x).mp (hx x hx')
    exact ⟨m, xs, rfl, hm⟩
  · rintro ⟨m, xs, rfl, hm⟩
    exact ⟨xs, rfl, fun x hx => (h x).mpr (forall₂_left hm x hx)⟩

theorem arrayMeans_unique {α} {P : Item → α → Prop} (hu : ∀ x y z, P x y → P x z → y = z) (i : Item) (l l' : List α)
    (h : ArrayMeans P l i) (h' : ArrayMeans P l' i) : l = l' := by
  obtain ⟨xs, rfl, hx⟩ := h
  obtain ⟨xs', e, hx'⟩ := h'
  injection e with e; subst e
  exact forall₂_unique hu hx hx'

/-- Values at a key are unique. -/
theorem at_key {ps : List (Nat × Item)} (hd : (ps.map (·.1)).Nodup) {k : Nat} {v v' : Item} (h : (k, v) ∈ ps) (h' : (k, v') ∈ ps) :
    v = v' := by
  have := (lookup_flat ps hd k v h).symm.trans (lookup_flat ps hd k v' h')
  injection this

theorem at_unique {α} {ps : List (Nat × Item)} (hd : (ps.map (·.1)).Nodup) {k : Nat} {d : α} {P : α → Item → Prop}
    (hu : ∀ i a b, P a i → P b i → a = b) {a b : α} (h : At ps k (a = d) (P a)) (h' : At ps k (b = d) (P b)) : a = b := by
  rcases h with ⟨v, hv, ha⟩ | ⟨hk, rfl⟩ <;> rcases h' with ⟨v', hv', hb⟩ | ⟨hk', hb⟩
  · rw [at_key hd hv hv'] at ha; exact hu _ _ _ ha hb
  · exact absurd (List.mem_map_of_mem (f := (·.1)) hv) hk'
  · exact absurd (List.mem_map_of_mem (f := (·.1)) hv') hk
  · exact hb.symm

theorem at_exists {α} {ps : List (Nat × Item)} {k : Nat} {d : α} {P : α → Item → Prop} {Q : Item → Prop}
    (hq : ∀ i, Q i → ∃ a, P a i) (h : ∀ v, (k, v) ∈ ps → Q v) : ∃ a, At ps k (a = d) (P a) := by
  by_cases hk : k ∈ ps.map (·.1)
  · obtain ⟨⟨k', v⟩, hv, rfl⟩ := List.mem_map.mp hk
    obtain ⟨a, ha⟩ := hq v (h v hv)
    exact ⟨a, Or.inl ⟨v, hv, ha⟩⟩
  · exact ⟨d, Or.inr ⟨hk, rfl⟩⟩

theorem at_typed {α} {ps : List (Nat × Item)} (hd : (ps.map (·.1)).Nodup) {k : Nat} {a : α} {d : α} {P : α → Item → Prop}
    {Q : Item → Prop} (hq : ∀ i, P a i → Q i) (h : At ps k (a = d) (P a)) : ∀ v, (k, v) ∈ ps → Q v := by
  intro v hv
  rcases h with ⟨v', hv', ha⟩ | ⟨hk, -⟩
  · rw [at_key hd hv hv']; exact hq _ ha
  · exact absurd (List.mem_map_of_mem (f := (·.1)) hv) hk

theorem wits_iff (i : Item) : WitsC i ↔ ∃ w, WitsMeans i w := by
  constructor
  · rintro ⟨ps, rfl, hd, ht, -⟩
    have t0 : ∀ v, (0, v) ∈ ps → ArrayOf (Group [BytesN 32, BytesN 64]) v := fun v hv => by
      obtain ⟨p, hp, hv⟩ := ht _ hv; simp at hp; rw [hp] at hv; exact hv
    have t1 : ∀ v, (1, v) ∈ ps → ArrayOf MultisigC v := fun v hv => by
      obtain ⟨p, hp, hv⟩ := ht _ hv; simp at hp; rw [hp] at hv; exact hv
    have t2 : ∀ v, (2, v) ∈ ps → ArrayOf (Group [BytesN 32, BytesN 64, BytesN 32, BytesAny]) v := fun v hv => by
      obtain ⟨p, hp, hv⟩ := ht _ hv; simp at hp; rw [hp] at hv; exact hv
    obtain ⟨a0, h0⟩ := at_exists (d := []) (P := ArrayMeans VkeyMeans) (fun i => (arrayMeans_iff vkey_iff i).mp) t0
    obtain ⟨a1, h1⟩ := at_exists (d := []) (P := ArrayMeans ScriptMeans) (fun i => (arrayMeans_iff script_iff i).mp) t1
    obtain ⟨a2, h2⟩ := at_exists (d := []) (P := ArrayMeans BootstrapMeans) (fun i => (arrayMeans_iff bootstrap_iff i).mp) t2
    refine ⟨⟨a0, a1, a2⟩, ps, rfl, hd, fun k hk => ?_, h0, h1, h2⟩
    obtain ⟨⟨k', v⟩, hv, rfl⟩ := List.mem_map.mp hk
    obtain ⟨p, hp, -⟩ := ht _ hv
    simp at hp
    simp only
    omega
  · rintro ⟨w, ps, rfl, hd, hk, h0, h1, h2⟩
    refine ⟨ps, rfl, hd, ?_, by simp⟩
    rintro ⟨k, v⟩ hv
    have := hk k (List.mem_map_of_mem (f := (·.1)) hv)
    have : k = 0 ∨ k = 1 ∨ k = 2 := by omega
    rcases this with rfl | rfl | rfl
    · exact ⟨_, by simp, at_typed hd (fun i hi => (arrayMeans_iff vkey_iff i).mpr ⟨_, hi⟩) h0 v hv⟩
    · exact ⟨ArrayOf MultisigC, by simp, at_typed hd (fun i hi => (arrayMeans_iff script_iff i).mpr ⟨_, hi⟩) h1 v hv⟩
    · exact ⟨_, by simp, at_typed hd (fun i hi => (arrayMeans_iff bootstrap_iff i).mpr ⟨_, hi⟩) h2 v hv⟩

theorem wits_unique (i : Item) (w w' : WitnessSet) (h : WitsMeans i w) (h' : WitsMeans i w') : w = w' := by
  obtain ⟨ps, rfl, hd, -, h0, h1, h2⟩ := h
  obtain ⟨ps', e, -, -, h0', h1', h2'⟩ := h'
  injection e with e
  have := flat_uint_inj e
  subst this
  have e0 := at_unique hd (fun i a b => arrayMeans_unique vkey_unique i a b) h0 h0'
  have e1 := at_unique hd (fun i a b => arrayMeans_unique script_unique i a b) h1 h1'
  have e2 := at_unique hd (fun i a b => arrayMeans_unique bootstrap_unique i a b) h2 h2'
  cases w; cases w'; simp_all

/-! ## The body -/

theorem inputs_exist (xs : List Item) (h : ∀ x ∈ xs, TxInC x) : ∃ ins, StrictSorted TxIn.lt ins ∧
    (∀ x ∈ xs, ∃ t ∈ ins, InMeans x t) ∧ ∀ t ∈ ins, ∃ x ∈ xs, InMeans x t := by
  obtain ⟨l, hl⟩ := forall₂_exists (P := InMeans) xs fun x hx => (in_iff x).mp (h x hx)
  have s1 := foldl_setInsert txInLt_order l [] List.Pairwise.nil
  have hm : ∀ t, t ∈ l.foldl (fun s x => setInsert TxIn.lt x s) [] ↔ t ∈ l := fun t => by rw [s1.2]; simp
  refine ⟨_, s1.1, ?_, ?_⟩
  · simp only [hm]
    clear hm s1 h
    induction hl with
    | nil => simp
    | @cons x t xs l h1 _ ih =>
      intro y hy
      rcases List.mem_cons.mp hy with rfl | hy
      · exact ⟨t, by simp, h1⟩
      · obtain ⟨t', ht', e⟩ := ih y hy; exact ⟨t', by simp [ht'], e⟩
  · intro t ht
    rw [hm] at ht
    clear hm s1 h
    induction hl with
    | nil => cases ht
    | @cons x t' xs l h1 _ ih =>
      rcases List.mem_cons.mp ht with rfl | ht
      · exact ⟨x, by simp, h1⟩
      · obtain ⟨y, hy, e⟩ := ih ht; exact ⟨y, by simp [hy], e⟩

theorem inputs_unique {xs : List Item} {a b : List TxIn} (ha : StrictSorted TxIn.lt a) (hb : StrictSorted TxIn.lt b)
    (a1 : ∀ x ∈ xs, ∃ t ∈ a, InMeans x t) (a2 : ∀ t ∈ a, ∃ x ∈ xs, InMeans x t)
    (b1 : ∀ x ∈ xs, ∃ t ∈ b, InMeans x t) (b2 : ∀ t ∈ b, ∃ x ∈ xs, InMeans x t) : a = b := by
  refine sorted_ext txInLt_order _ _ ha hb fun t => ⟨fun h => ?_, fun h => ?_⟩
  · obtain ⟨x, hx, e⟩ := a2 t h
    obtain ⟨t', h', e'⟩ := b1 x hx
    rw [in_unique x t t' e e']; exact h'
  · obtain ⟨x, hx, e⟩ := b2 t h
    obtain ⟨t', h', e'⟩ := a1 x hx
    rw [in_unique x t t' e e']; exact h'

theorem nodup_of_map {α β} (f : α → β) {l : List α} (h : (l.map f).Nodup) : l.Nodup := by
  unfold List.Nodup at h ⊢
  rw [List.pairwise_map] at h
  exact h.imp fun hab e => hab (by rw [e])

theorem nodup_map_inj {α β} (f : α → β) (hf : ∀ a b, f a = f b → a = b) {l : List α} (h : l.Nodup) : (l.map f).Nodup := by
  unfold List.Nodup at h ⊢
  rw [List.pairwise_map]
  exact h.imp fun hab e => hab (hf _ _ e)

/-- What key 5 of a body means. -/
def WdMeans (wd : List (Bytes × Nat)) (v : Item) : Prop := ∃ ws : List (Bytes × Nat), v = .map (flat .bstr .uint ws) ∧
  (ws.map (·.1)).Nodup ∧ StrictSorted bytesLt (wd.map (·.1)) ∧ wd.Perm ws

theorem wd_items (ps : List (Item × Item)) (h : ∀ kv ∈ ps, BytesAny kv.1 ∧ UInt kv.2) :
    ∃ ws : List (Bytes × Nat), ps = ws.map fun e => (.bstr e.1, .uint e.2) := by
  induction ps with
  | nil => exact ⟨[], rfl⟩
  | cons p ps ih =>
    obtain ⟨ws, e⟩ := ih fun kv hkv => h kv (by simp [hkv])
    obtain ⟨⟨b, hb⟩, ⟨n, hn⟩⟩ := h p (by simp)
    exact ⟨(b, n) :: ws, by rw [e, List.map_cons, ← hb, ← hn]⟩

theorem wd_iff (v : Item) : MapOf BytesAny UInt v ↔ ∃ wd, WdMeans wd v := by
  constructor
  · rintro ⟨ps, rfl, hn, hp⟩
    obtain ⟨ws, rfl⟩ := wd_items ps hp
    have hn' : (ws.map (·.1)).Nodup := by
      rw [List.map_map] at hn
      refine nodup_of_map Item.bstr ?_
      rw [List.map_map]; exact hn
    obtain ⟨r, -, h2, h3⟩ := withdrawalLoop_flat ws [] List.Pairwise.nil hn' (by simp)
    refine ⟨r, ws, ?_, hn', h2, ?_⟩
    · rw [List.flatMap_map]; rfl
    · refine (List.perm_ext_iff_of_nodup ?_ (nodup_of_map _ hn')).mpr fun e => by rw [h3]; simp
      exact nodup_of_map _ (sorted_nodup bytesLt_order _ h2)
  · rintro ⟨wd, ws, rfl, hn, -, -⟩
    refine ⟨ws.map fun e => (.bstr e.1, .uint e.2), by rw [List.flatMap_map]; rfl, ?_, ?_⟩
    · rw [List.map_map]
      have := nodup_map_inj Item.bstr (fun a b h => by injection h) hn
      rw [List.map_map] at this
      exact this
    · intro kv hkv
      obtain ⟨e, -, rfl⟩ := List.mem_map.mp hkv
      exact ⟨⟨_, rfl⟩, ⟨_, rfl⟩⟩

theorem wd_unique (v : Item) (a b : List (Bytes × Nat)) (h : WdMeans a v) (h' : WdMeans b v) : a = b := by
  obtain ⟨ws, rfl, -, s, p⟩ := h
  obtain ⟨ws', e, -, s', p'⟩ := h'
  injection e with e
  have := flat_wd_inj e
  subst this
  exact map_ext bytesLt_order _ _ s s' fun e => by rw [p.mem_iff, p'.mem_iff]

/-- What key 7 of a body means. -/
def HashMeans (o : Option Bytes) (v : Item) : Prop := ∃ h, v = .bstr h ∧ h.length = 32 ∧ o = some h

theorem hash_unique (v : Item) (a b : Option Bytes) (h : HashMeans a v) (h' : HashMeans b v) : a = b := by
  obtain ⟨x, rfl, -, rfl⟩ := h
  obtain ⟨y, e, -, rfl⟩ := h'
  injection e with e; rw [e]

theorem body_iff (i : Item) : TxBodyC i ↔ ∃ b, BodyMeans i b := by
  constructor
  · rintro ⟨ps, rfl, hd, ht, hr⟩
    have val : ∀ k, k ∈ ps.map (·.1) → ∃ v, (k, v) ∈ ps := fun k hk => by
      obtain ⟨⟨k', v⟩, hv, rfl⟩ := List.mem_map.mp hk; exact ⟨v, hv⟩
    simp only [List.mem_cons, List.not_mem_nil, or_false, forall_eq_or_imp, forall_eq] at hr
    obtain ⟨r0, r1, r2, r3⟩ := hr
    obtain ⟨v0, h0⟩ := val 0 r0
    obtain ⟨v1, h1⟩ := val 1 r1
    obtain ⟨v2, h2⟩ := val 2 r2
    obtain ⟨v3, h3⟩ := val 3 r3
    obtain ⟨p0, m0, t0⟩ := ht _ h0
    obtain ⟨p1, m1, t1⟩ := ht _ h1
    obtain ⟨p2, m2, t2⟩ := ht _ h2
    obtain ⟨p3, m3, t3⟩ := ht _ h3
    simp at m0 m1 m2 m3
    subst m0 m1 m2 m3
    have t4 : ∀ v, (4, v) ∈ ps → ArrayOf CertificateC v := fun v hv => by
      obtain ⟨p, hp, hv⟩ := ht _ hv; simp at hp; rw [hp] at hv; exact hv
    have t5 : ∀ v, (5, v) ∈ ps → MapOf BytesAny UInt v := fun v hv => by
      obtain ⟨p, hp, hv⟩ := ht _ hv; simp at hp; rw [hp] at hv; exact hv
    have t7 : ∀ v, (7, v) ∈ ps → BytesN 32 v := fun v hv => by
      obtain ⟨p, hp, hv⟩ := ht _ hv; simp at hp; rw [hp] at hv; exact hv
    obtain ⟨xs, rfl, hxn, hx⟩ := t0
    obtain ⟨ins, i1, i2, i3⟩ := inputs_exist xs hx
    obtain ⟨outs, ho⟩ := (arrayMeans_iff out_iff _).mp t1
    obtain ⟨fee, rfl⟩ := t2
    obtain ⟨ttl, rfl⟩ := t3
    obtain ⟨cs, h4⟩ := at_exists (d := []) (P := ArrayMeans CertMeans) (fun i => (arrayMeans_iff cert_iff i).mp) t4
    obtain ⟨wd, h5⟩ := at_exists (d := []) (P := WdMeans) (fun i => (wd_iff i).mp) t5
    obtain ⟨mh, h7⟩ := at_exists (d := none) (P := HashMeans) (Q := BytesN 32)
      (fun i hi => by obtain ⟨b, rfl, hb⟩ := hi; exact ⟨some b, b, rfl, hb, rfl⟩) t7
    refine ⟨⟨ins, outs, fee, ttl, cs, wd, decide (6 ∈ ps.map (·.1)), mh⟩, ps, rfl, hd, fun k hk => ?_,
      ⟨xs, h0, hxn, i1, i2, i3⟩, ⟨v1, h1, ho⟩, h2, h3, h4, h5, by simp, h7⟩
    obtain ⟨v, hv⟩ := val k hk
    obtain ⟨p, hp, -⟩ := ht _ hv
    simp at hp
    omega
  · rintro ⟨b, ps, rfl, hd, hk, ⟨xs, h0, hxn, i1, i2, i3⟩, ⟨v1, h1, ho⟩, h2, h3, h4, h5, -, h7⟩
    refine ⟨ps, rfl, hd, ?_, ?_⟩
    · rintro ⟨k, v⟩ hv
      have := hk k (List.mem_map_of_mem (f := (·.1)) hv)
      have : k = 0 ∨ k = 1 ∨ k = 2 ∨ k = 3 ∨ k = 4 ∨ k = 5 ∨ k = 6 ∨ k = 7 := by omega
      rcases this with rfl | rfl | rfl | rfl | rfl | rfl | rfl | rfl
      · refine ⟨_, List.mem_append_left _ (List.mem_cons_self ..), xs, at_key hd hv h0, hxn, fun x hx => ?_⟩
        obtain ⟨t, -, e⟩ := i2 x hx
        exact (in_iff x).mpr ⟨t, e⟩
      · exact ⟨ArrayOf TxOutC, by simp, by rw [at_key hd hv h1]; exact (arrayMeans_iff out_iff _).mpr ⟨_, ho⟩⟩
      · exact ⟨UInt, by simp, _, at_key hd hv h2⟩
      · exact ⟨UInt, by simp, _, at_key hd hv h3⟩
      · exact ⟨ArrayOf CertificateC, by simp, at_typed hd (fun i hi => (arrayMeans_iff cert_iff i).mpr ⟨_, hi⟩) h4 v hv⟩
      · exact ⟨MapOf BytesAny UInt, by simp, at_typed hd (P := WdMeans) (fun i hi => (wd_iff i).mpr ⟨_, hi⟩) h5 v hv⟩
      · exact ⟨fun _ => True, by simp, trivial⟩
      · exact ⟨BytesN 32, by simp, at_typed hd (P := HashMeans) (fun i hi => by
          obtain ⟨h, e, hl, -⟩ := hi; exact ⟨h, e, hl⟩) h7 v hv⟩
    · simp only [List.mem_cons, List.not_mem_nil, or_false, forall_eq_or_imp, forall_eq]
      exact ⟨List.mem_map_of_mem (f := (·.1)) h0, List.mem_map_of_mem (f := (·.1)) h1,
        List.mem_map_of_mem (f := (·.1)) h2, List.mem_map_of_mem (f := (·.1)) h3⟩

theorem body_unique (i : Item) (b b' : TxBody) (h : BodyMeans i b) (h' : BodyMeans i b') : b = b' := by
  obtain ⟨ps, rfl, hd, -, ⟨xs, h0, -, i1, i2, i3⟩, ⟨v1, h1, ho⟩, h2, h3, h4, h5, h6, h7⟩ := h
  obtain ⟨ps', e, -, -, ⟨xs', h0', -, i1', i2', i3'⟩, ⟨v1', h1', ho'⟩, h2', h3', h4', h5', h6', h7'⟩ := h'
  injection e with e
  have := flat_uint_inj e
  subst this
  have ex := at_key hd h0 h0'
  injection ex with ex; subst ex
  have e0 := inputs_unique i1 i1' i2 i3 i2' i3'
  have e1 : b.outputs = b'.outputs := by
    rw [at_key hd h1 h1'] at ho; exact arrayMeans_unique out_unique _ _ _ ho ho'
  have e2 := at_key hd h2 h2'
  injection e2 with e2
  have e3 := at_key hd h3 h3'
  injection e3 with e3
  have e4 := at_unique hd (fun i a b => arrayMeans_unique cert_unique i a b) h4 h4'
  have e5 := at_unique hd (P := WdMeans) wd_unique h5 h5'
  have e7 := at_unique hd (P := HashMeans) hash_unique h7 h7'
  have e6 : b.update = b'.update := Bool.eq_iff_iff.mpr (h6.trans h6'.symm)
  cases b; cases b'; simp_all

/-- **C99** (the meaning is exactly the grammar).  A CBOR item is a transaction of the Shelley CDDL (`TxC`, the grammar of C64) if
and only if it means some transaction, and it never means two different ones. -/
theorem C99_grammar (i : Item) : (TxC i ↔ ∃ t, TxMeans i t) ∧ ∀ t t', TxMeans i t → TxMeans i t' → t = t' := by
  refine ⟨⟨?_, ?_⟩, ?_⟩
  · rintro ⟨l, rfl, hm⟩
    have hlen := group_length hm
    match l, hlen, hm with
    | [b, w, m], _, hm =>
      simp only [Matches] at hm
      obtain ⟨b', hb⟩ := (body_iff b).mp hm.1
      obtain ⟨w', hw⟩ := (wits_iff w).mp hm.2.1
      by_cases h : m = .null
      · exact ⟨⟨b', w', false⟩, b, w, m, rfl, hb, hw, by simp [h]⟩
      · exact ⟨⟨b', w', true⟩, b, w, m, rfl, hb, hw, by simp [h]⟩
  · rintro ⟨t, b, w, m, rfl, hb, hw, -⟩
    exact ⟨_, rfl, (body_iff b).mpr ⟨_, hb⟩, (wits_iff w).mpr ⟨_, hw⟩, trivial, trivial⟩
  · rintro t t' ⟨b, w, m, rfl, hb, hw, hm⟩ ⟨b', w', m', e, hb', hw', hm'⟩
    simp only [Item.array.injEq, List.cons.injEq, and_true] at e
    obtain ⟨rfl, rfl, rfl⟩ := e
    have e1 := body_unique _ _ _ hb hb'
    have e2 := wits_unique _ _ _ hw hw'
    have e3 : t.metadata = t'.metadata := Bool.eq_iff_iff.mpr (hm.trans hm'.symm)
    cases t; cases t'; simp_all

end Cardano.Ledger
